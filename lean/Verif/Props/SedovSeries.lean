import Verif.Model.SedovSeries
import Verif.Spec.SedovSeries
import Verif.Props.Shock
import Verif.Props.Polynomial
import Verif.Props.CloudSetup
import Verif.Props.BinarySafety
import Verif.Props.Sedov
import Verif.Props.Euler
import Verif.Props.SrhdRecover
import Verif.Props.BinarySetup

/-!
# The initial state (C112) and the time series (C113) of the Sedov program
-/

namespace Verif.Sedov

open Verif.Nd Verif.Cloud

/-- Reading past the end of a buffer. -/
theorem evaluate_outside {α : Type} [Inhabited α] {A B : Arr 1 α} (h : evaluate A = .ok B) {n : Nat} (hn : A.shape 0 = n)
    (h31 : n < 2 ^ 31) {k : Nat} (hk : n ≤ k) (hk' : k < 2 ^ 64) : B.get (fun _ => k) = .ub := by
  unfold evaluate at h
  split at h
  · cases h
  · obtain ⟨l, _, h⟩ := Outcome.bind_eq_ok.1 h
    obtain ⟨buf, _, h⟩ := Outcome.bind_eq_ok.1 h
    unfold ofBuffer at h
    have hv : volume A.shape = n := by
      rw [volume_small (by simpa [count, hn] using h31)]
      simp [count, hn]
    split at h
    · cases h
    · rename_i hb
      cases h
      have : computeOffset (strides A.shape) (fun _ => k) = k := by
        simp only [computeOffset, strides, List.finRange_succ, List.finRange_zero, List.map_nil, List.foldl_cons, List.foldl_nil,
          mul_one, zero_add]
        unfold w
        omega
      dsimp only
      rw [this, List.getElem?_eq_none (by rw [hv] at hb; omega)]

theorem isVertex_unique {x1 x2 x3 y1 y2 y3 r r' : ℝ} (h12 : x1 < x2) (h23 : x2 < x3) (h : IsVertex x1 x2 x3 y1 y2 y3 r)
    (h' : IsVertex x1 x2 x3 y1 y2 y3 r') : r = r' := by
  obtain ⟨A, b, hA, e1, e2, e3⟩ := h
  obtain ⟨A', b', hA', f1, f2, f3⟩ := h'
  have g1 : A * (x1 + x2 - 2 * r) = A' * (x1 + x2 - 2 * r') := by
    have : (x1 - x2) * (A * (x1 + x2 - 2 * r)) = (x1 - x2) * (A' * (x1 + x2 - 2 * r')) := by linear_combination -e1 + e2 + f1 - f2
    exact mul_left_cancel₀ (by linarith) this
  have g2 : A * (x2 + x3 - 2 * r) = A' * (x2 + x3 - 2 * r') := by
    have : (x2 - x3) * (A * (x2 + x3 - 2 * r)) = (x2 - x3) * (A' * (x2 + x3 - 2 * r')) := by linear_combination -e2 + e3 + f2 - f3
    exact mul_left_cancel₀ (by linarith) this
  have g3 : A = A' := by
    have : (x1 - x3) * A = (x1 - x3) * A' := by linear_combination g1 - g2
    exact mul_left_cancel₀ (by linarith) this
  subst g3
  have := mul_left_cancel₀ hA g1
  linarith

/-- Collinear points have no vertex. -/
theorem parabola_collinear {x1 x2 x3 y1 y2 y3 : ℝ} (h : (y2 - y1) * (x3 - x1) = (y3 - y1) * (x2 - x1)) :
    Polynomial.parabolaVertex x1 x2 x3 y1 y2 y3 = .ub := by
  unfold Polynomial.parabolaVertex
  dsimp only
  rw [if_pos]
  right
  rw [show x3 * (y2 - y1) + x2 * (y1 - y3) + x1 * (y3 - y2) = 0 by linear_combination h, zero_div]

theorem vertex_iff {x1 x2 x3 y1 y2 y3 : ℝ} (h12 : x1 < x2) (h23 : x2 < x3) (r : ℝ) :
    (Polynomial.parabolaVertex x1 x2 x3 y1 y2 y3).map Prod.fst = .ok r ↔ IsVertex x1 x2 x3 y1 y2 y3 r := by
  by_cases h : (y2 - y1) * (x3 - x1) = (y3 - y1) * (x2 - x1)
  · rw [parabola_collinear h]
    constructor
    · intro h
      cases h
    · rintro ⟨A, b, hA, rfl, rfl, rfl⟩
      exfalso
      have : A * ((x2 - x1) * (x3 - x1) * (x2 - x3)) = 0 := by linear_combination h
      rcases mul_eq_zero.1 this with h | h
      · exact hA h
      · exact mul_ne_zero (mul_ne_zero (by linarith) (by linarith)) (by linarith) h
  · obtain ⟨x, y, A, e, hA, e1, e2, e3⟩ := Polynomial.parabola_vertex x1 x2 x3 y1 y2 y3 h12.ne (h12.trans h23).ne h23.ne h
    rw [e, Outcome.map_ok]
    have hv : IsVertex x1 x2 x3 y1 y2 y3 x := ⟨A, y, hA, e1, e2, e3⟩
    constructor
    · intro h
      cases h
      exact hv
    · intro h
      rw [isVertex_unique h12 h23 hv h]

theorem velocityEuler_iff (p1 p2 : Vec 5 ℝ) (s : ℝ) : shockVelocityEuler p1 p2 = .ok s ↔ IsFrontSpeed (p1 0) (p2 0) (p1 1) (p2 1) s := by
  unfold shockVelocityEuler divide IsFrontSpeed
  by_cases h : p2 0 - p1 0 = 0
  · rw [if_pos h]
    constructor
    · intro h
      cases h
    · rintro ⟨h', _⟩
      exact absurd (by linarith) h'
  · rw [if_neg h, Outcome.ok.injEq, div_eq_iff h]
    constructor
    · intro e
      exact ⟨fun h' => h (by linarith), e.symm⟩
    · rintro ⟨_, e⟩
      exact e.symm

theorem velocitySrhd_iff (p1 p2 : Vec 5 ℝ) (s : ℝ) : shockVelocitySrhd p1 p2 = .ok s ↔
    IsFrontSpeed (p1 0 * Srhd.lorentzFactor p1) (p2 0 * Srhd.lorentzFactor p2)
      (p1 1 / Srhd.lorentzFactor p1) (p2 1 / Srhd.lorentzFactor p2) s := by
  have hW : ∀ P : Vec 5 ℝ, Srhd.lorentzFactor P ≠ 0 := by
    intro P
    unfold Srhd.lorentzFactor Srhd.gammaBetaSquared
    have : 0 < 1 + (P 1 * P 1 + P 2 * P 2 + P 3 * P 3) := by
      have h1 := mul_self_nonneg (P 1)
      have h2 := mul_self_nonneg (P 2)
      have h3 := mul_self_nonneg (P 3)
      linarith
    exact (Real.sqrt_pos.2 this).ne'
  have e1 : p1 0 * Srhd.lorentzFactor p1 * (p1 1 / Srhd.lorentzFactor p1) = p1 0 * p1 1 := by
    have := hW p1
    field_simp
  have e2 : p2 0 * Srhd.lorentzFactor p2 * (p2 1 / Srhd.lorentzFactor p2) = p2 0 * p2 1 := by
    have := hW p2
    field_simp
  unfold shockVelocitySrhd divide IsFrontSpeed
  rw [e1, e2]
  by_cases h : p2 0 * Srhd.lorentzFactor p2 - p1 0 * Srhd.lorentzFactor p1 = 0
  · rw [if_pos h]
    constructor
    · intro h
      cases h
    · rintro ⟨h', _⟩
      exact absurd (by linarith) h'
  · rw [if_neg h, Outcome.ok.injEq, div_eq_iff h]
    constructor
    · intro e
      exact ⟨fun h' => h (by linarith), e.symm⟩
    · rintro ⟨_, e⟩
      exact e.symm

theorem recover_pos {U P : Vec 5 ℝ} {g T : ℝ} (h : Srhd.recover U g T = .ok P) : 0 < P 0 ∧ 0 < P 4 := by
  unfold Srhd.recover at h
  split at h
  · unfold Srhd.finish at h
    dsimp only at h
    split_ifs at h with h1 h2 h3 h4
    obtain rfl := Outcome.ok.inj h
    exact ⟨not_le.1 h3, not_le.1 h4⟩
  all_goals cases h

theorem recover_rest {U P : Vec 5 ℝ} {g T : ℝ} (h : Srhd.recover U g T = .ok P) (h0 : U 1 = 0) : P 1 = 0 := by
  unfold Srhd.recover at h
  split at h
  · unfold Srhd.finish at h
    dsimp only at h
    split_ifs at h with h1 h2 h3 h4
    obtain rfl := Outcome.ok.inj h
    simp [h0]
  all_goals cases h

section Series

variable {H : Hydro 5 ℝ (Vec 5 ℝ)} {velocity : Vec 5 ℝ → Vec 5 ℝ → Outcome ℝ} {g : ℝ} {st : State 5 ℝ} {n : Nat} {x : Nat → ℝ}
  {U P : Nat → Vec 5 ℝ}

theorem shell_ne (hm : ∀ k, k < n → x k < x (k + 1)) {k : Nat} (hk : k < n) : shell x k ≠ 0 := by
  have h : x k ^ 3 < x (k + 1) ^ 3 := Odd.strictMono_pow (by decide) (hm k hk)
  unfold shell
  intro h'
  linarith

theorem primitives_line (hx : Line st.vertices (n + 1) x) (hm : ∀ k, k < n → x k < x (k + 1)) (hU : Line st.conserved n U)
    (hn : n + 1 < 2 ^ 31) (hP : ∀ k, k < n → H.recover (fun a => U k a / shell x k) = .ok (P k)) :
    ∃ p, primitives H st = .ok p ∧ Line p n P ∧ ∀ k, n ≤ k → k < 2 ^ 64 → p.get (fun _ => k) = .ub := by
  obtain ⟨V, e1, hV⟩ := cellVolumes_line hx (by omega)
  obtain ⟨D, e2, hD⟩ := hU.binaryOpO hV (f := divideVec) (x := fun k => fun a => U k a / shell x k) (by
    intro k hk
    unfold divideVec
    rw [if_neg (show ¬(x (k + 1) ^ 3 - x k ^ 3) / 3 = 0 from shell_ne hm hk)]
    rfl)
  have hD' := hD.mapO hP
  obtain ⟨p, e3, hp⟩ := hD'.evaluate (by omega)
  refine ⟨p, ?_, hp, fun k hk hk' => evaluate_outside e3 hD'.1 (by omega) hk hk'⟩
  unfold primitives
  rw [e1, Outcome.bind_ok]
  rw [show binaryOpO divideVec st.conserved V = .ok D from e2, Outcome.bind_ok, e3]

theorem wsub_zero_one : wsub 0 1 = 2 ^ 64 - 1 := by
  unfold wsub
  decide

/-- **C113** for any gas. -/
theorem series_row (hx : Line st.vertices (n + 1) x) (hm : ∀ k, k < n → x k < x (k + 1)) (hU : Line st.conserved n U)
    (h2 : 2 ≤ n) (hn : n + 1 < 2 ^ 31) (hP : ∀ k, k < n → H.recover (fun a => U k a / shell x k) = .ok (P k))
    (hpos : ∀ k, k < n → 0 < P k 0 ∧ 0 < P k 4) :
    ∃ k i j, SteepestDrop (fun l => entropyOf g (P l)) n k ∧ PeakBehind (fun l => P l 4) k i
      ∧ PlateauAhead (fun l => Real.log (P l 4)) n k j
      ∧ ∀ row, timeSeries H velocity g st = .ok row ↔ 1 ≤ i
        ∧ IsVertex (middle x (i - 1)) (middle x i) (middle x (i + 1)) (P (i - 1) 1) (P i 1) (P (i + 1) 1) row.shockRadiusInterpolated
        ∧ velocity (P j) (P i) = .ok row.shockVelocity
        ∧ row.time = st.time ∧ row.shockRadius = x k ∧ row.shockRadiusUpstream = middle x j ∧ row.shockRadiusDownstream = middle x i := by
  obtain ⟨p, e1, hp, hout⟩ := primitives_line hx hm hU hn hP
  have hs : Line (p.mapO (specificEntropy g)) n (fun l => entropyOf g (P l)) := hp.mapO fun k hk => by
    unfold specificEntropy
    rw [if_pos (hpos k hk)]
    rfl
  have hl : Line (p.mapO logPressure) n (fun l => Real.log (P l 4)) := hp.mapO fun k hk => by
    unfold logPressure
    rw [if_pos (hpos k hk).2]
  obtain ⟨k, e2, hk, hk1, hk2⟩ := Shock.shock_index_partial _ n _ (line_iff.1 hs) h2 (by omega)
  obtain ⟨i, e3, hi, hi1, hi2⟩ := Shock.maximum_behind _ n _ (line_iff.1 (hp.map fun P => P 4)) (by omega) k (by omega)
  obtain ⟨j, e4, hj⟩ := Shock.plateau_ahead _ n _ (line_iff.1 hl) (by omega) (by omega) k (by omega)
  have hjn : j < n := by
    rcases hj with ⟨_, _, h, _⟩ | ⟨h, _⟩ <;> omega
  obtain ⟨rc, e5, hc⟩ := hx.midpoint (by omega)
  have hc' : Line rc n (middle x) := hc.congr rfl fun k _ => by
    unfold middle
    ring
  have hv : Line (p.map fun P => P 1) n (fun l => P l 1) := hp.map _
  have hmid : ∀ l, l + 1 < n → middle x l < middle x (l + 1) := by
    intro l hl
    have h1 := hm l (by omega)
    have h2 := hm (l + 1) (by omega)
    unfold middle
    linarith
  refine ⟨k, i, j, ⟨hk, hk1, hk2⟩, ⟨hi, hi1, hi2⟩, ?_, fun row => ?_⟩
  · unfold PlateauAhead Falling
    simpa only [not_lt] using hj
  · have hfv : ∀ r, findVertex rc (p.map fun P => P 1) i = .ok r ↔ 1 ≤ i ∧
        IsVertex (middle x (i - 1)) (middle x i) (middle x (i + 1)) (P (i - 1) 1) (P i 1) (P (i + 1) 1) r := by
      intro r
      unfold findVertex
      rcases Nat.eq_zero_or_pos i with rfl | hi0
      · constructor
        · intro h
          exfalso
          obtain ⟨_, _, h⟩ := Outcome.bind_eq_ok.1 h
          obtain ⟨_, _, h⟩ := Outcome.bind_eq_ok.1 h
          obtain ⟨_, _, h⟩ := Outcome.bind_eq_ok.1 h
          obtain ⟨_, h', h⟩ := Outcome.bind_eq_ok.1 h
          unfold Arr.map at h'
          dsimp only at h'
          rw [wsub_zero_one, hout _ (by omega) (by omega)] at h'
          cases h'
        · rintro ⟨h, _⟩
          omega
      · have ew : wsub i 1 = i - 1 := Shock.wsub_le (by omega) (by omega)
        have ew' : w (i + 1) = i + 1 := by
          unfold w
          omega
        rw [ew, ew', hc'.2 (i - 1) (by omega), hc'.2 i (by omega), hc'.2 (i + 1) (by omega), hv.2 (i - 1) (by omega), hv.2 i (by omega),
          hv.2 (i + 1) (by omega)]
        simp only [Outcome.bind_ok]
        have h1 := hmid (i - 1) (by omega)
        rw [show i - 1 + 1 = i by omega] at h1
        rw [vertex_iff h1 (hmid i (by omega))]
        exact ⟨fun h => ⟨hi0, h⟩, fun h => h.2⟩
    unfold timeSeries
    rw [e1, Outcome.bind_ok, e2, Outcome.bind_ok, show (Shock.at1 k 0 : Nat) = k from rfl, e3, Outcome.bind_ok, e4, Outcome.bind_ok, e5,
      Outcome.bind_ok]
    dsimp only
    rw [show st.vertices.get (Shock.at1 k) = .ok (x k) from hx.2 k (by omega), Outcome.bind_ok, hc'.2 j hjn, Outcome.bind_ok,
      hc'.2 i (by omega), Outcome.bind_ok, hp.2 j hjn, hp.2 i (by omega)]
    simp only [Outcome.bind_ok]
    constructor
    · intro h
      obtain ⟨r, h1, h⟩ := Outcome.bind_eq_ok.1 h
      obtain ⟨s, h2, h⟩ := Outcome.map_eq_ok.1 h
      obtain ⟨h3, h4⟩ := (hfv r).1 h1
      subst h
      exact ⟨h3, h4, h2, rfl, rfl, rfl, rfl⟩
    · rintro ⟨h3, h4, h5, h6, h7, h8, h9⟩
      rw [(hfv _).2 ⟨h3, h4⟩, Outcome.bind_ok, h5, Outcome.map_ok]
      obtain ⟨t, a, b, c, d, s⟩ := row
      dsimp only at h6 h7 h8 h9
      subst h6 h7 h8 h9
      rfl

end Series

/-- **C113, partial.** Newtonian gas: a row of numbers is written if and only if the pressure peak behind the shock is not in the
innermost cell, the velocities at the peak and beside it are not collinear, and the densities at the peak and at the plateau
differ.  The row then has the inner vertex of the cell behind the steepest drop of the entropy, the middles of the cells of the
plateau and of the peak, the vertex of the parabola through the velocities about the peak, and the speed of a front between peak
and plateau that conserves mass. -/
theorem series_newtonian_partial (st : State 5 ℝ) (n : Nat) (x : Nat → ℝ) (U P : Nat → Vec 5 ℝ) (g : ℝ) (hx : Line st.vertices (n + 1) x)
    (hm : ∀ k, k < n → x k < x (k + 1)) (hU : Line st.conserved n U) (h2 : 2 ≤ n) (hn : n + 1 < 2 ^ 31)
    (hg : 1 < g) (hP : ∀ k, k < n → U k = scale (Euler.toConserved (P k) g) (shell x k)) (hpos : ∀ k, k < n → 0 < P k 0 ∧ 0 < P k 4) :
    ∃ k i j, SteepestDrop (fun l => entropyOf g (P l)) n k ∧ PeakBehind (fun l => P l 4) k i
      ∧ PlateauAhead (fun l => Real.log (P l 4)) n k j
      ∧ ∀ row, timeSeries (newtonian g) shockVelocityEuler g st = .ok row ↔ 1 ≤ i
        ∧ IsVertex (middle x (i - 1)) (middle x i) (middle x (i + 1)) (P (i - 1) 1) (P i 1) (P (i + 1) 1) row.shockRadiusInterpolated
        ∧ IsFrontSpeed (P j 0) (P i 0) (P j 1) (P i 1) row.shockVelocity
        ∧ row.time = st.time ∧ row.shockRadius = x k ∧ row.shockRadiusUpstream = middle x j ∧ row.shockRadiusDownstream = middle x i := by
  have hrec : ∀ k, k < n → (newtonian g).recover (fun a => U k a / shell x k) = .ok (P k) := by
    intro k hk
    have hV := shell_ne hm hk
    have e : (fun a => U k a / shell x k) = Euler.toConserved (P k) g := by
      funext a
      rw [hP k hk]
      unfold scale
      exact mul_div_cancel_right₀ _ hV
    rw [e]
    unfold newtonian
    dsimp only
    rw [if_neg, Euler.recover_toConserved (P k) ⟨(hpos k hk).1, (hpos k hk).2⟩ g hg]
    exact (hpos k hk).1.ne'
  obtain ⟨k, i, j, h⟩ := series_row (velocity := shockVelocityEuler) (g := g) hx hm hU h2 hn hrec hpos
  exact ⟨k, i, j, by simpa only [velocityEuler_iff] using h⟩

/-- **C113, partial.** Relativistic gas, with four-velocities in place of the velocities for the parabola, and densities in the
frame of the grid for the front. -/
theorem series_relativistic_partial (st : State 5 ℝ) (n : Nat) (x : Nat → ℝ) (U P : Nat → Vec 5 ℝ) (g : ℝ) (hx : Line st.vertices (n + 1) x)
    (hm : ∀ k, k < n → x k < x (k + 1)) (hU : Line st.conserved n U) (h2 : 2 ≤ n) (hn : n + 1 < 2 ^ 31)
    (hP : ∀ k, k < n → Srhd.recover (fun a => U k a / shell x k) g 0 = .ok (P k)) :
    ∃ k i j, SteepestDrop (fun l => entropyOf g (P l)) n k ∧ PeakBehind (fun l => P l 4) k i
      ∧ PlateauAhead (fun l => Real.log (P l 4)) n k j
      ∧ ∀ row, timeSeries (relativistic g) shockVelocitySrhd g st = .ok row ↔ 1 ≤ i
        ∧ IsVertex (middle x (i - 1)) (middle x i) (middle x (i + 1)) (P (i - 1) 1) (P i 1) (P (i + 1) 1) row.shockRadiusInterpolated
        ∧ IsFrontSpeed (P j 0 * Srhd.lorentzFactor (P j)) (P i 0 * Srhd.lorentzFactor (P i))
            (P j 1 / Srhd.lorentzFactor (P j)) (P i 1 / Srhd.lorentzFactor (P i)) row.shockVelocity
        ∧ row.time = st.time ∧ row.shockRadius = x k ∧ row.shockRadiusUpstream = middle x j ∧ row.shockRadiusDownstream = middle x i := by
  have hpos : ∀ k, k < n → 0 < P k 0 ∧ 0 < P k 4 := by
    intro k hk
    exact recover_pos (hP k hk)
  obtain ⟨k, i, j, h⟩ := series_row (H := relativistic g) (velocity := shockVelocitySrhd) (g := g) hx hm hU h2 hn hP hpos
  exact ⟨k, i, j, by simpa only [velocitySrhd_iff] using h⟩

theorem steepest_unique {s : Nat → ℝ} {n k k' : Nat} (h : SteepestDrop s n k) (h' : SteepestDrop s n k') : k = k' := by
  rcases Nat.lt_trichotomy k k' with hl | hl | hl
  · exact absurd (h.2.1 k' h'.1) (not_le.2 (h'.2.2 k hl))
  · exact hl
  · exact absurd (h'.2.1 k h.1) (not_le.2 (h.2.2 k' hl))

/-- **C113, violated.** The radius of the shock is never that of the face across which the entropy drops the most: it is that of
the inner face of the cell behind it. -/
theorem series_radius_violated (st : State 5 ℝ) (n : Nat) (x : Nat → ℝ) (U P : Nat → Vec 5 ℝ) (g : ℝ) (hx : Line st.vertices (n + 1) x)
    (hm : ∀ k, k < n → x k < x (k + 1)) (hU : Line st.conserved n U) (h2 : 2 ≤ n) (hn : n + 1 < 2 ^ 31)
    (hg : 1 < g) (hP : ∀ k, k < n → U k = scale (Euler.toConserved (P k) g) (shell x k)) (hpos : ∀ k, k < n → 0 < P k 0 ∧ 0 < P k 4)
    (row : Row) (hrow : timeSeries (newtonian g) shockVelocityEuler g st = .ok row) (k : Nat)
    (hk : SteepestDrop (fun l => entropyOf g (P l)) n k) : row.shockRadius = x k ∧ row.shockRadius < x (k + 1) := by
  obtain ⟨k', i, j, h3, _, _, h⟩ := series_newtonian_partial st n x U P g hx hm hU h2 hn hg hP hpos
  obtain rfl := steepest_unique hk h3
  have e := ((h row).1 hrow).2.2.2.2.1
  have := hk.1
  rw [e]
  exact ⟨rfl, hm k (by omega)⟩

/-- **C113, bracket.** If the velocity is largest at the peak, the vertex of the parabola is between the faces of the cells
about it, as far as they are in the middle between the middles of the cells. -/
theorem series_bracket {x1 x2 x3 y1 y2 y3 r : ℝ} (h12 : x1 < x2) (h23 : x2 < x3) (h1 : y1 < y2) (h3 : y3 < y2)
    (h : IsVertex x1 x2 x3 y1 y2 y3 r) : (x1 + x2) / 2 < r ∧ r < (x2 + x3) / 2 := by
  obtain ⟨A, b, hA, rfl, rfl, rfl⟩ := h
  have e1 : 0 < A * ((x2 - x1) * (x1 + x2 - 2 * r)) := by nlinarith
  have e3 : 0 < A * ((x3 - x2) * (2 * r - x2 - x3)) := by nlinarith
  rcases lt_or_gt_of_ne hA with hA | hA
  · have f1 : (x2 - x1) * (x1 + x2 - 2 * r) < 0 := neg_of_mul_pos_right e1 hA.le
    have f3 : (x3 - x2) * (2 * r - x2 - x3) < 0 := neg_of_mul_pos_right e3 hA.le
    have g1 := neg_of_mul_neg_right f1 (by linarith)
    have g3 := neg_of_mul_neg_right f3 (by linarith)
    constructor <;> linarith
  · exfalso
    have f1 := pos_of_mul_pos_right e1 hA.le
    have f3 := pos_of_mul_pos_right e3 hA.le
    have g1 := pos_of_mul_pos_right f1 (by linarith : (0:ℝ) ≤ x2 - x1)
    have g3 := pos_of_mul_pos_right f3 (by linarith : (0:ℝ) ≤ x3 - x2)
    linarith

/-- What an evaluated array holds. -/
theorem evaluate_values {α : Type} [Inhabited α] {A B : Arr 1 α} (h : evaluate A = .ok B) {n : Nat} {y : Nat → α} (hB : Line B n y)
    (hn : A.shape 0 = n) (h31 : n < 2 ^ 31) {i : Ix 1} {v : α} (hi : B.get i = .ok v) : ∃ k, k < n ∧ v = y k := by
  have e : B.get i = B.get fun _ => i 0 % 2 ^ 64 := by
    unfold evaluate at h
    split at h
    · cases h
    · obtain ⟨l, _, h⟩ := Outcome.bind_eq_ok.1 h
      obtain ⟨buf, _, h⟩ := Outcome.bind_eq_ok.1 h
      unfold ofBuffer at h
      split at h
      · cases h
      · cases h
        have : computeOffset (strides A.shape) i = computeOffset (strides A.shape) (fun _ => i 0 % 2 ^ 64) := by
          simp only [computeOffset, strides, List.finRange_succ, List.finRange_zero, List.map_nil, List.foldl_cons, List.foldl_nil,
            mul_one, zero_add]
          unfold w
          omega
        dsimp only
        rw [this]
  rw [e] at hi
  rcases Nat.lt_or_ge (i 0 % 2 ^ 64) n with hk | hk
  · rw [hB.2 _ hk] at hi
    cases hi
    exact ⟨_, hk, rfl⟩
  · rw [evaluate_outside h hn h31 hk (Nat.mod_lt _ (by decide))] at hi
    cases hi

theorem rest_any {H : Hydro 5 ℝ (Vec 5 ℝ)} (hr : ∀ V P, H.recover V = .ok P → V 1 = 0 → P 1 = 0)
    (velocity : Vec 5 ℝ → Vec 5 ℝ → Outcome ℝ) (g : ℝ) (st : State 5 ℝ) (n : Nat) (x : Nat → ℝ) (U : Nat → Vec 5 ℝ)
    (hx : Line st.vertices (n + 1) x) (hm : ∀ k, k < n → x k < x (k + 1)) (hU : Line st.conserved n U) (h1 : 1 ≤ n) (hn : n + 1 < 2 ^ 31)
    (hrest : ∀ k, k < n → U k 1 = 0) (row : Row) : timeSeries H velocity g st ≠ .ok row := by
  intro h
  unfold timeSeries at h
  obtain ⟨p, e1, h⟩ := Outcome.bind_eq_ok.1 h
  obtain ⟨k, _, h⟩ := Outcome.bind_eq_ok.1 h
  obtain ⟨i, _, h⟩ := Outcome.bind_eq_ok.1 h
  obtain ⟨j, _, h⟩ := Outcome.bind_eq_ok.1 h
  obtain ⟨rc, _, h⟩ := Outcome.bind_eq_ok.1 h
  dsimp only at h
  obtain ⟨_, _, h⟩ := Outcome.bind_eq_ok.1 h
  obtain ⟨_, _, h⟩ := Outcome.bind_eq_ok.1 h
  obtain ⟨_, _, h⟩ := Outcome.bind_eq_ok.1 h
  obtain ⟨r, hv, _⟩ := Outcome.bind_eq_ok.1 h
  clear h
  -- all primitive states have been found, and are at rest
  unfold primitives at e1
  obtain ⟨V, f1, e1⟩ := Outcome.bind_eq_ok.1 e1
  obtain ⟨V', f1', hV⟩ := cellVolumes_line hx (by omega)
  obtain rfl := Outcome.ok.inj (f1'.symm.trans f1)
  obtain ⟨D, f2, e1⟩ := Outcome.bind_eq_ok.1 e1
  obtain ⟨D', f2', hD⟩ := hU.binaryOpO hV (f := divideVec) (x := fun k => fun a => U k a / shell x k) (by
    intro k hk
    unfold divideVec
    rw [if_neg (show ¬(x (k + 1) ^ 3 - x k ^ 3) / 3 = 0 from shell_ne hm hk)]
    rfl)
  obtain rfl := Outcome.ok.inj (f2'.symm.trans f2)
  have hsh : (D'.mapO H.recover).shape 0 = n := hD.1
  have hex : ∀ k, ∃ P, k < n → H.recover (fun a => U k a / shell x k) = .ok P := by
    intro k
    by_cases hk : k < n
    · obtain ⟨P, hP⟩ := Binary.evaluate_gets e1 (fun a => by rw [Fin.fin_one_eq_zero a, hsh]; omega)
        (fun a => by rw [Fin.fin_one_eq_zero a, hsh]; omega) (fun _ => k) (fun a => by rw [Fin.fin_one_eq_zero a, hsh]; exact hk)
      refine ⟨P, fun _ => ?_⟩
      unfold Arr.mapO at hP
      dsimp only at hP
      rwa [hD.2 k hk, Outcome.bind_ok] at hP
    · exact ⟨0, fun h => absurd h hk⟩
  choose P hP using hex
  have hl := hD.mapO hP
  obtain ⟨p', e1', hp⟩ := hl.evaluate (by omega)
  obtain rfl := Outcome.ok.inj (e1'.symm.trans e1)
  have h0 : ∀ k, k < n → P k 1 = 0 := fun k hk => hr _ _ (hP k hk) (by
    show U k 1 / shell x k = 0
    rw [hrest k hk, zero_div])
  have hvc : ∀ (i : Ix 1) (v : ℝ), (p'.map fun P => P 1).get i = .ok v → v = 0 := by
    intro i v h
    obtain ⟨Q, hQ, rfl⟩ := Outcome.map_eq_ok.1 h
    obtain ⟨k, hk, rfl⟩ := evaluate_values e1 hp hsh (by omega) hQ
    exact h0 k hk
  unfold findVertex at hv
  obtain ⟨_, _, hv⟩ := Outcome.bind_eq_ok.1 hv
  obtain ⟨_, _, hv⟩ := Outcome.bind_eq_ok.1 hv
  obtain ⟨_, _, hv⟩ := Outcome.bind_eq_ok.1 hv
  obtain ⟨y1, g1, hv⟩ := Outcome.bind_eq_ok.1 hv
  obtain ⟨y2, g2, hv⟩ := Outcome.bind_eq_ok.1 hv
  obtain ⟨y3, g3, hv⟩ := Outcome.bind_eq_ok.1 hv
  rw [hvc _ _ g1, hvc _ _ g2, hvc _ _ g3, parabola_collinear (by ring)] at hv
  cases hv

/-- **C113, violated.** Gas without radial momentum, as at the beginning of a run, has no row of numbers. -/
theorem series_rest_violated (st : State 5 ℝ) (n : Nat) (x : Nat → ℝ) (U : Nat → Vec 5 ℝ) (g : ℝ) (hx : Line st.vertices (n + 1) x)
    (hm : ∀ k, k < n → x k < x (k + 1)) (hU : Line st.conserved n U) (h1 : 1 ≤ n) (hn : n + 1 < 2 ^ 31) (hrest : ∀ k, k < n → U k 1 = 0)
    (row : Row) : timeSeries (newtonian g) shockVelocityEuler g st ≠ .ok row ∧ timeSeries (relativistic g) shockVelocitySrhd g st ≠ .ok row := by
  refine ⟨rest_any ?_ _ g st n x U hx hm hU h1 hn hrest row, rest_any ?_ _ g st n x U hx hm hU h1 hn hrest row⟩
  · intro V P h h0
    unfold newtonian at h
    dsimp only at h
    split_ifs at h
    obtain rfl := Outcome.ok.inj h
    simp [Euler.recover, h0]
  · intro V P h h0
    exact recover_rest h h0

/-! ### The initial state -/

theorem start_any (toC : Vec 5 ℝ → Vec 5 ℝ) (c : RunConfig) (m : Nat) (ho : 1 < c.outerRadius) (hnr : 0 < c.nr)
    (hm1 : (m : ℝ) ≤ Real.logb 10 c.outerRadius * c.nr) (hm2 : Real.logb 10 c.outerRadius * c.nr < m + 1) (h1 : 1 ≤ m) (hm : m + 1 < 2 ^ 31) :
    ∃ st x, newSolution toC c = .ok st ∧ st.time = 0 ∧ Line st.vertices (m + 1) x ∧
      (∀ k, x k = (10 : ℝ) ^ (-1 / 2 + (Real.logb 10 c.outerRadius - -1 / 2) * k / m)) ∧
      Line st.conserved m (fun k => scale (toC (c.initial (middle x k))) (shell x k)) := by
  have hd : 0 < Real.logb 10 c.outerRadius := Real.logb_pos (by norm_num) ho
  have hnr' : (0 : ℝ) < c.nr := by exact_mod_cast hnr
  have e1 : toInt (Real.logb 10 c.outerRadius * c.nr) = .ok (m : Int) := by
    rw [toInt_iff]
    refine ⟨by omega, by omega, fun _ => ⟨by exact_mod_cast hm1, by exact_mod_cast hm2⟩, fun h => ?_⟩
    have := mul_pos hd hnr'
    linarith
  have e2 := countAfter_ok (n := m) (by omega)
  have hl := (linspace_line (-1 / 2) (Real.logb 10 c.outerRadius) m (by omega)).map fun y => (10 : ℝ) ^ y
  obtain ⟨xs, e3, hx⟩ := hl.evaluate (by omega)
  obtain ⟨V, e4, hV⟩ := cellVolumes_line hx (by omega)
  obtain ⟨C, e5, hC⟩ := hx.midpoint (by omega)
  have hC' : Line C m (middle fun k => (10 : ℝ) ^ (-1 / 2 + (Real.logb 10 c.outerRadius - -1 / 2) * k / m)) := hC.congr rfl fun k _ => by
    unfold middle
    ring
  obtain ⟨Y, e6, hY⟩ := ((hC'.map c.initial).map toC).binaryOp hV scale
  obtain ⟨Z, e7, hZ⟩ := hY.evaluate (by omega)
  refine ⟨⟨0, xs, Z⟩, _, ?_, rfl, hx, fun _ => rfl, hZ⟩
  unfold newSolution
  rw [if_neg (by linarith)]
  dsimp only
  rw [e1, Outcome.bind_ok, e2, Outcome.bind_ok, e3, Outcome.bind_ok, e4, Outcome.bind_ok, e5, Outcome.bind_ok, e6, Outcome.bind_ok, e7,
    Outcome.map_ok]

/-- The states that the program starts with, with density and pressure of the explosion inside of radius one. -/
def StartsWith (c : RunConfig) (g : ℝ) (st : State 5 ℝ) (m : Nat) (x : Nat → ℝ) (U : Nat → Vec 5 ℝ) : Prop :=
  st.time = 0 ∧ Line st.vertices (m + 1) x ∧ Line st.conserved m U
    ∧ x 0 = (10 : ℝ) ^ (-1 / 2 : ℝ) ∧ x m = c.outerRadius ∧ (∀ k, k < m → 0 < x k ∧ x k < x (k + 1))
    ∧ (∀ k, k < m → Real.logb 10 (x (k + 1)) - Real.logb 10 (x k) = (Real.logb 10 c.outerRadius + 1 / 2) / m)
    ∧ (∀ k, k < m → middle x k < 1 →
        U k = fun a => ![c.explosionDensity, 0, 0, 0, c.explosionPressure / (g - 1)] a * shell x k)
    ∧ (∀ k, k < m → 1 ≤ middle x k →
        U k = fun a => ![middle x k ^ (-c.densityIndex), 0, 0, 0, middle x k ^ (-c.densityIndex) / 10 ^ 6 / (g - 1)] a * shell x k)

theorem startsWith_any (toC : Vec 5 ℝ → Vec 5 ℝ) (c : RunConfig) (g : ℝ) (m : Nat) (ho : 1 < c.outerRadius) (hnr : 0 < c.nr)
    (hm1 : (m : ℝ) ≤ Real.logb 10 c.outerRadius * c.nr) (hm2 : Real.logb 10 c.outerRadius * c.nr < m + 1) (h1 : 1 ≤ m) (hm : m + 1 < 2 ^ 31)
    (hc : 0 < c.explosionDensity) (hC : ∀ d p : ℝ, 0 < d → toC ![d, 0, 0, 0, p] = ![d, 0, 0, 0, p / (g - 1)]) :
    ∃ st x U, newSolution toC c = .ok st ∧ StartsWith c g st m x U := by
  obtain ⟨st, x, e, ht, hx, hk, hU⟩ := start_any toC c m ho hnr hm1 hm2 h1 hm
  have hd : 0 < Real.logb 10 c.outerRadius := Real.logb_pos (by norm_num) ho
  have hm0 : (0 : ℝ) < m := by exact_mod_cast h1
  have hpos : ∀ k, 0 < x k := fun k => by
    rw [hk]
    positivity
  have hlog : ∀ k, Real.logb 10 (x k) = -1 / 2 + (Real.logb 10 c.outerRadius - -1 / 2) * k / m := fun k => by
    rw [hk, Real.logb_rpow (by norm_num) (by norm_num)]
  have hstep : ∀ k, Real.logb 10 (x (k + 1)) - Real.logb 10 (x k) = (Real.logb 10 c.outerRadius + 1 / 2) / m := fun k => by
    rw [hlog, hlog]
    push_cast
    field_simp
    ring
  have hinc : ∀ k, x k < x (k + 1) := fun k => by
    rw [← Real.logb_lt_logb_iff (b := 10) (by norm_num) (hpos _) (hpos _), ← sub_pos, hstep]
    positivity
  refine ⟨st, x, _, e, ht, hx, hU, ?_, ?_, fun k _ => ⟨hpos k, hinc k⟩, fun k _ => hstep k, fun k _ h => ?_, fun k _ h => ?_⟩
  · rw [hk]
    congr 1
    push_cast
    ring
  · rw [hk, show -1 / 2 + (Real.logb 10 c.outerRadius - -1 / 2) * (m : ℝ) / m = Real.logb 10 c.outerRadius by field_simp; ring]
    exact Real.rpow_logb (by norm_num) (by norm_num) (by linarith)
  · unfold scale RunConfig.initial
    rw [if_pos h, if_pos h, hC _ _ hc]
  · have hmid : 0 < middle x k ^ (-c.densityIndex) := Real.rpow_pos_of_pos (by linarith) _
    unfold scale RunConfig.initial
    rw [if_neg (not_lt.2 h), if_neg (not_lt.2 h), hC _ _ hmid]
    funext a
    congr 2
    rw [mul_one_div]

/-- **C112, partial.** A run starts with a grid whose radii are in geometric progression from 10^(-1/2) to the outer radius, with
as many zones as the truncated product of the decades of the outer radius and the configured number, and with gas at rest: that of
the explosion in the zones whose middle is inside of radius one, and outside of it a power law with temperature 10^-6. -/
theorem start_partial (c : RunConfig) (g : ℝ) (m : Nat) (hg : 1 < g) (ho : 1 < c.outerRadius) (hnr : 0 < c.nr)
    (hm1 : (m : ℝ) ≤ Real.logb 10 c.outerRadius * c.nr) (hm2 : Real.logb 10 c.outerRadius * c.nr < m + 1) (h1 : 1 ≤ m) (hm : m + 1 < 2 ^ 31)
    (hc : 0 < c.explosionDensity) :
    (∃ st x U, newSolution (fun P => Euler.toConserved P g) c = .ok st ∧ StartsWith c g st m x U)
    ∧ ∃ st x U, newSolution (fun P => Srhd.toConserved P g) c = .ok st ∧ StartsWith c g st m x U := by
  refine ⟨startsWith_any _ c g m ho hnr hm1 hm2 h1 hm hc fun d p _ => ?_, startsWith_any _ c g m ho hnr hm1 hm2 h1 hm hc fun d p hd => ?_⟩
  · funext a
    fin_cases a <;> simp [Euler.toConserved, Euler.velocitySquared]
  · have : d * (d + p * (1 + 1 / (g - 1))) / d - p - d = p / (g - 1) := by
      have : g - 1 ≠ 0 := by linarith
      field_simp
      ring
    funext a
    fin_cases a <;> simp [Srhd.toConserved, Srhd.lorentzFactor, Srhd.gammaBetaSquared, Srhd.specificEnthalpy, Srhd.enthalpyDensity]
    rw [← this]
    field_simp

/-- **C112, violated.** There are never as many zones per decade as configured: every zone spans more than that part of a decade, and the
grid begins inside of the radius 1/2 from which the explosion is said to begin. -/
theorem zones_violated (c : RunConfig) (g : ℝ) (st : State 5 ℝ) (m : Nat) (x : Nat → ℝ) (U : Nat → Vec 5 ℝ) (ho : 1 < c.outerRadius) (hnr : 0 < c.nr)
    (hm1 : (m : ℝ) ≤ Real.logb 10 c.outerRadius * c.nr) (h1 : 1 ≤ m) (h : StartsWith c g st m x U) :
    (∀ k, k < m → 1 / (c.nr : ℝ) < Real.logb 10 (x (k + 1)) - Real.logb 10 (x k)) ∧ x 0 < 1 / 2 := by
  obtain ⟨_, _, _, h0, _, _, hs, _⟩ := h
  have hd : 0 < Real.logb 10 c.outerRadius := Real.logb_pos (by norm_num) ho
  have hm0 : (0 : ℝ) < m := by exact_mod_cast h1
  have hnr' : (0 : ℝ) < c.nr := by exact_mod_cast hnr
  constructor
  · intro k hk
    rw [hs k hk, div_lt_div_iff₀ hnr' hm0]
    linarith
  · rw [h0, show (-1 / 2 : ℝ) = -(1 / 2) by ring, Real.rpow_neg (by norm_num), ← Real.sqrt_eq_rpow, one_div]
    apply inv_strictAnti₀ (by norm_num)
    rw [Real.lt_sqrt (by norm_num)]
    norm_num

/-- **C113, violated.** The first row, of the state that the program starts with, has undefined numbers. -/
theorem series_first_violated (c : RunConfig) (g : ℝ) (st : State 5 ℝ) (m : Nat) (x : Nat → ℝ) (U : Nat → Vec 5 ℝ) (h1 : 1 ≤ m) (hm : m + 1 < 2 ^ 31)
    (h : StartsWith c g st m x U) (row : Row) :
    timeSeries (newtonian g) shockVelocityEuler g st ≠ .ok row ∧ timeSeries (relativistic g) shockVelocitySrhd g st ≠ .ok row := by
  obtain ⟨_, hx, hU, _, _, hi, _, h2, h3⟩ := h
  refine series_rest_violated st m x U g hx (fun k hk => (hi k hk).2) hU h1 hm (fun k hk => ?_) row
  rcases lt_or_ge (middle x k) 1 with h | h
  · rw [h2 k hk h]
    simp
  · rw [h3 k hk h]
    simp

/-! ### Examples -/

/-- Radii 1, 2, ... 6. -/
def sixRadii : Nat → ℝ := fun k => k + 1

/-- Five cells, with a dense moving shell in the second one. -/
noncomputable def fiveCells : Nat → Vec 5 ℝ
  | 0 => ![1, 0, 0, 0, 1]
  | 1 => ![8, 2, 0, 0, 4]
  | 2 => ![1, 1, 0, 0, 2]
  | _ => ![1, 0, 0, 0, 1 / 10]

/-- The state of a run with the five cells. -/
noncomputable def fiveState (toC : Vec 5 ℝ → Vec 5 ℝ) : State 5 ℝ :=
  ⟨7, ⟨fun _ => 6, fun i => .ok (sixRadii (i 0))⟩, ⟨fun _ => 5, fun i => .ok (scale (toC (fiveCells (i 0))) (shell sixRadii (i 0)))⟩⟩

theorem sixRadii_lt (k : Nat) : sixRadii k < sixRadii (k + 1) := by
  unfold sixRadii
  push_cast
  linarith

theorem five_values : fiveCells 0 0 = 1 ∧ fiveCells 0 1 = 0 ∧ fiveCells 0 4 = 1 ∧ fiveCells 1 0 = 8 ∧ fiveCells 1 1 = 2 ∧ fiveCells 1 4 = 4
    ∧ fiveCells 2 0 = 1 ∧ fiveCells 2 1 = 1 ∧ fiveCells 2 4 = 2 ∧ ∀ k, fiveCells (k + 3) 0 = 1 ∧ fiveCells (k + 3) 1 = 0 ∧ fiveCells (k + 3) 4 = 1 / 10 :=
  ⟨rfl, rfl, rfl, rfl, rfl, rfl, rfl, rfl, rfl, fun _ => ⟨rfl, rfl, rfl⟩⟩

theorem fiveCells_pos (k : Nat) : 0 < fiveCells k 0 ∧ 0 < fiveCells k 4 := by
  match k with
  | 0 => norm_num [five_values]
  | 1 => norm_num [five_values]
  | 2 => norm_num [five_values]
  | k + 3 => norm_num [five_values]

theorem five_entropies : entropyOf (4 / 3) (fiveCells 0) = 0 ∧ entropyOf (4 / 3) (fiveCells 1) = Real.log (1 / 4)
    ∧ entropyOf (4 / 3) (fiveCells 2) = Real.log 2 ∧ ∀ k, 3 ≤ k → entropyOf (4 / 3) (fiveCells k) = Real.log (1 / 10) := by
  have h8 : (8 : ℝ) ^ (4 / 3 : ℝ) = 16 := by
    rw [show (8 : ℝ) = 2 ^ (3 : ℝ) by norm_num, ← Real.rpow_mul (by norm_num)]
    norm_num
  refine ⟨by simp [entropyOf, fiveCells], ?_, by simp [entropyOf, fiveCells], fun k hk => ?_⟩
  · unfold entropyOf
    rw [show fiveCells 1 4 = 4 from rfl, show fiveCells 1 0 = 8 from rfl, h8]
    norm_num
  · obtain ⟨l, rfl⟩ : ∃ l, k = l + 3 := ⟨k - 3, by omega⟩
    simp [entropyOf, fiveCells]

/-- The row of the five cells.  The entropy drops the most across the face at radius 4. -/
theorem five_row : SteepestDrop (fun l => entropyOf (4 / 3) (fiveCells l)) 5 2 ∧
    timeSeries (newtonian (4 / 3)) shockVelocityEuler (4 / 3) (fiveState fun P => Euler.toConserved P (4 / 3))
      = .ok ⟨7, 3, 11 / 2, 5 / 2, 8 / 3, 16 / 7⟩ := by
  obtain ⟨s0, s1, s2, s3⟩ := five_entropies
  have l1 : Real.log (1 / 4) = -(2 * Real.log 2) := by
    rw [show (1 / 4 : ℝ) = (2 ^ 2)⁻¹ by norm_num, Real.log_inv, Real.log_pow]
    norm_num
  have l2 : Real.log (1 / 10) < -(3 * Real.log 2) := by
    rw [one_div, Real.log_inv]
    have : Real.log (2 ^ 3) < Real.log 10 := Real.log_lt_log (by norm_num) (by norm_num)
    rw [Real.log_pow] at this
    push_cast at this
    linarith
  have l3 : 0 < Real.log 2 := Real.log_pos (by norm_num)
  have hst : SteepestDrop (fun l => entropyOf (4 / 3) (fiveCells l)) 5 2 := by
    have hlt : ∀ l, l + 1 < 5 → l ≠ 2 → Real.log (1 / 10) - Real.log 2 <
        entropyOf (4 / 3) (fiveCells (l + 1)) - entropyOf (4 / 3) (fiveCells l) := by
      intro l hl hne
      match l, hl, hne with
      | 0, _, _ =>
        rw [s0, s1]
        linarith
      | 1, _, _ =>
        rw [s1, s2]
        linarith
      | 3, _, _ =>
        rw [s3 3 le_rfl, s3 4 (by omega)]
        linarith
    refine ⟨by omega, fun l hl => ?_, fun l hl => ?_⟩
    · beta_reduce
      rw [s3 3 le_rfl, s2]
      by_cases h : l = 2
      · subst h
        rw [s3 3 le_rfl, s2]
      · exact (hlt l hl h).le
    · beta_reduce
      rw [s3 3 le_rfl, s2]
      exact hlt l (by omega) (by omega)
  refine ⟨hst, ?_⟩
  obtain ⟨k, i, j, h1, h2, h3, h⟩ := series_newtonian_partial (fiveState fun P => Euler.toConserved P (4 / 3)) 5 sixRadii _ fiveCells (4 / 3)
    ⟨rfl, fun _ _ => rfl⟩ (fun k _ => sixRadii_lt k) ⟨rfl, fun _ _ => rfl⟩ (by omega) (by norm_num) (by norm_num) (fun _ _ => rfl)
    (fun k _ => fiveCells_pos k)
  obtain rfl := steepest_unique hst h1
  have hi : i = 1 := by
    obtain ⟨g1, g2, g3⟩ := h2
    match i, g1, g2, g3 with
    | 0, _, g2, _ =>
      have := g2 1 (by omega) (by omega)
      norm_num [five_values] at this
    | 1, _, _, _ => rfl
    | 2, _, _, g3 =>
      have := g3 (by omega)
      norm_num [five_values] at this
  have q1 : Real.log (fiveCells 1 4) = 2 * Real.log 2 := by
    rw [show fiveCells 1 4 = 2 ^ 2 by norm_num [five_values], Real.log_pow]
    norm_num
  have q2 : Real.log (fiveCells 2 4) = Real.log 2 := rfl
  have q0 : Real.log (fiveCells 0 4) = 0 := by simp [fiveCells]
  have q3 : Real.log (fiveCells 3 4) = Real.log (1 / 10) := rfl
  have q4 : Real.log (fiveCells 4 4) = Real.log (1 / 10) := rfl
  have n4 : ¬ Falling (fun l => Real.log (fiveCells l 4)) 4 := by
    unfold Falling
    simp only [show 4 - 1 = 3 from rfl, show 4 - 2 = 2 from rfl, q2, q3, q4]
    linarith
  have n3 : Falling (fun l => Real.log (fiveCells l 4)) 3 := by
    unfold Falling
    simp only [show 3 - 1 = 2 from rfl, show 3 - 2 = 1 from rfl, q1, q2, q3]
    linarith
  have n2 : Falling (fun l => Real.log (fiveCells l 4)) 2 := by
    unfold Falling
    simp only [show 2 - 1 = 1 from rfl, show 2 - 2 = 0 from rfl, q0, q1, q2]
    linarith
  have hj : j = 4 := by
    rcases h3 with ⟨_, g1, g2, g3, _⟩ | ⟨_, g | g⟩
    · match j, g1, g2, g3 with
      | 2, _, _, g3 => exact absurd n2 g3
      | 3, _, _, g3 => exact absurd n3 g3
      | 4, _, _, _ => rfl
    · omega
    · exact absurd (g 4 (by omega) (by omega)) n4
  subst hi hj
  refine (h _).2 ⟨le_rfl, ⟨-3 / 2, 49 / 24, by norm_num, ?_, ?_, ?_⟩, ⟨?_, ?_⟩, rfl, ?_, ?_, ?_⟩
  all_goals norm_num [five_values, show fiveCells 4 0 = 1 from rfl, show fiveCells 4 1 = 0 from rfl, sixRadii, middle]

/-- The relativistic theorem for the same cells. -/
example : ∃ (P : Nat → Vec 5 ℝ) (k i j : Nat), SteepestDrop (fun l => entropyOf (4 / 3) (P l)) 5 k ∧ PeakBehind (fun l => P l 4) k i
    ∧ PlateauAhead (fun l => Real.log (P l 4)) 5 k j := by
  have hex : ∀ k, ∃ Q, Srhd.recover (Srhd.toConserved (fiveCells k) (4 / 3)) (4 / 3) 0 = .ok Q := by
    intro k
    refine (Srhd.recover_accurate (fiveCells k) (fiveCells_pos k) (4 / 3) (by norm_num) (by norm_num) ?_ 0
      (by rw [zero_mul]; exact (fiveCells_pos k).2.le)).2 ?_
    · rw [Srhd.lorentz_sq, Srhd.gammaBetaSquared]
      have h : fiveCells k 2 = 0 ∧ fiveCells k 3 = 0 ∧ 0 ≤ fiveCells k 1 ∧ fiveCells k 1 ≤ 2 := by
        match k with
        | 0 => norm_num [five_values, show fiveCells 0 2 = 0 from rfl, show fiveCells 0 3 = 0 from rfl]
        | 1 => norm_num [five_values, show fiveCells 1 2 = 0 from rfl, show fiveCells 1 3 = 0 from rfl]
        | 2 => norm_num [five_values, show fiveCells 2 2 = 0 from rfl, show fiveCells 2 3 = 0 from rfl]
        | k + 3 => norm_num [five_values, show fiveCells (k + 3) 2 = 0 from rfl, show fiveCells (k + 3) 3 = 0 from rfl]
      rw [h.1, h.2.1]
      nlinarith [h.2.2.1, h.2.2.2]
    have : fiveCells k 4 ≤ 4 := by
      match k with
      | 0 => norm_num [five_values]
      | 1 => norm_num [five_values]
      | 2 => norm_num [five_values]
      | k + 3 => norm_num [five_values]
    calc (4 / 3 - 1 : ℝ) ^ 49 * fiveCells k 4 ≤ (4 / 3 - 1) ^ 49 * 4 := by gcongr
      _ < _ := by norm_num
  choose P hP using hex
  obtain ⟨k, i, j, h1, h2, h3, _⟩ := series_relativistic_partial (fiveState fun P => Srhd.toConserved P (4 / 3)) 5 sixRadii _ P (4 / 3)
    ⟨rfl, fun _ _ => rfl⟩ (fun k _ => sixRadii_lt k) ⟨rfl, fun _ _ => rfl⟩ (by omega) (by norm_num) (fun k hk => by
      rw [← hP k]
      congr 1
      funext a
      exact mul_div_cancel_right₀ _ (shell_ne (fun k _ => sixRadii_lt k) hk))
  exact ⟨P, k, i, j, h1, h2, h3⟩

/-- A parabola with its maximum off the middle. -/
example : (3 / 2 + 5 / 2) / 2 < (8 / 3 : ℝ) ∧ (8 / 3 : ℝ) < (5 / 2 + 7 / 2) / 2 :=
  series_bracket (y1 := 0) (y2 := 2) (y3 := 1) (by norm_num) (by norm_num) (by norm_num) (by norm_num)
    ⟨-3 / 2, 49 / 24, by norm_num, by norm_num, by norm_num, by norm_num⟩

/-- The configuration by default: 512 zones in two and a half decades, not 640, and a first row with undefined numbers. -/
theorem default_start : ∃ st x U, newSolution (fun P => Srhd.toConserved P (4 / 3)) ⟨256, 100, 1, 1, 0⟩ = .ok st ∧ StartsWith ⟨256, 100, 1, 1, 0⟩ (4 / 3) st 512 x U
    ∧ (∀ k, k < 512 → 1 / 256 < Real.logb 10 (x (k + 1)) - Real.logb 10 (x k)) ∧ x 0 < 1 / 2
    ∧ ∀ row, timeSeries (relativistic (4 / 3)) shockVelocitySrhd (4 / 3) st ≠ .ok row := by
  have hl : Real.logb 10 100 = 2 := by
    rw [show (100 : ℝ) = 10 ^ (2 : ℝ) by norm_num, Real.logb_rpow (by norm_num) (by norm_num)]
  have hm1 : ((512 : Nat) : ℝ) ≤ Real.logb 10 (RunConfig.mk 256 100 1 1 0).outerRadius * (RunConfig.mk 256 100 1 1 0).nr := by
    show _ ≤ Real.logb 10 100 * ((256 : Int) : ℝ)
    rw [hl]
    norm_num
  obtain ⟨st, x, U, e, h⟩ := (start_partial ⟨256, 100, 1, 1, 0⟩ (4 / 3) 512 (by norm_num) (by norm_num) (by norm_num) hm1 (by
    show Real.logb 10 100 * ((256 : Int) : ℝ) < _
    rw [hl]
    norm_num) (by omega) (by norm_num) (by norm_num)).2
  have hz := zones_violated _ _ _ _ _ _ (by norm_num) (by norm_num) hm1 (by omega) h
  exact ⟨st, x, U, e, h, fun k hk => by simpa using hz.1 k hk, hz.2, fun row => (series_first_violated _ _ _ _ _ _ (by omega) (by norm_num) h row).2⟩

end Verif.Sedov
