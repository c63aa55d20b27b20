import Verif.Model.SedovGas
import Verif.Props.Sedov
import Verif.Props.EulerRiemann
import Verif.Props.SrhdRecover
import Mathlib.Analysis.SpecialFunctions.Integrals.Basic

/-!
# C69, C89, C90: what becomes of the gas of the Sedov program
-/

namespace Verif.Sedov

open Verif.Nd Geometry

/-- **C69.** The volumes of the cells are those of shells of one steradian, `∫ r² dr`; they add up to that of the whole grid. The
areas of the faces are those of one steradian. -/
theorem shells (A : Arr 1 ℝ) (n : Nat) (hn : n + 1 < 2 ^ 31) (r : Nat → ℝ) (h : Line A (n + 1) r) :
    (∃ V v, cellVolumes A = .ok V ∧ Line V n v ∧ (∀ k, k < n → v k = ∫ x in r k..r (k + 1), x ^ 2)
      ∧ sum V = .ok (∫ x in r 0..r n, x ^ 2)) ∧ Line (faceAreas A) (n + 1) (fun k => r k ^ 2) := by
  obtain ⟨V, e, hV⟩ := cellVolumes_line h (by omega)
  refine ⟨⟨V, _, e, hV, fun k _ => ?_, ?_⟩, (faceAreas_line h).congr rfl fun k _ => by ring⟩
  · rw [integral_pow]
    norm_num
  · rw [hV.sum (by omega), integral_pow, ← Finset.sum_div, Finset.sum_range_sub (fun k => r k ^ 3) n]
    norm_num

/-- A reflecting wall stops mass, energy and transverse momentum, in gas that obeys Newton's laws. -/
theorem newtonian_wall (P : Euler.Vec) (g : ℝ) (i : Fin 5) (hi : i ≠ 1) :
    Euler.hlle (Function.update P 1 (-P 1)) P ⟨1, 0, 0⟩ g i = 0 := by
  have e : Function.update P 1 (-P 1) = Euler.mirrored P := by
    funext j
    unfold Euler.mirrored
    by_cases hj : j = 1
    · subst hj
      simp
    · simp [hj]
  have e2 : Euler.mirrored (Euler.mirrored P) = P := by
    funext j
    unfold Euler.mirrored
    by_cases hj : j = 1
    · simp [hj]
    · simp [hj]
  have := Euler.hlle_mirrored (Euler.mirrored P) P g i
  rw [e2, if_neg hi] at this
  rw [e]
  linarith

/-- The wave speeds of the mirror image. -/
theorem relativistic_mirror (P : Srhd.Vec) (g : ℝ) :
    Srhd.wavespeeds (Function.update P 1 (-P 1)) ⟨1, 0, 0⟩ g
      = (-(Srhd.wavespeeds P ⟨1, 0, 0⟩ g).2, -(Srhd.wavespeeds P ⟨1, 0, 0⟩ g).1)
    ∧ Srhd.betaAlong (Function.update P 1 (-P 1)) ⟨1, 0, 0⟩ = -Srhd.betaAlong P ⟨1, 0, 0⟩
    ∧ ∀ i, i ≠ 1 → Srhd.toConserved (Function.update P 1 (-P 1)) g i = Srhd.toConserved P g i := by
  have u0 : (Function.update P 1 (-P 1)) 0 = P 0 := Function.update_of_ne (by decide) _ _
  have u1 : (Function.update P 1 (-P 1)) 1 = -P 1 := Function.update_self _ _ _
  have u2 : (Function.update P 1 (-P 1)) 2 = P 2 := Function.update_of_ne (by decide) _ _
  have u3 : (Function.update P 1 (-P 1)) 3 = P 3 := Function.update_of_ne (by decide) _ _
  have u4 : (Function.update P 1 (-P 1)) 4 = P 4 := Function.update_of_ne (by decide) _ _
  have hg : Srhd.gammaBetaSquared (Function.update P 1 (-P 1)) = Srhd.gammaBetaSquared P := by
    unfold Srhd.gammaBetaSquared
    rw [u1, u2, u3]
    ring
  have hw : Srhd.lorentzFactor (Function.update P 1 (-P 1)) = Srhd.lorentzFactor P := by
    unfold Srhd.lorentzFactor
    rw [hg]
  have hH : Srhd.enthalpyDensity (Function.update P 1 (-P 1)) g = Srhd.enthalpyDensity P g := by
    unfold Srhd.enthalpyDensity
    rw [u0, u4]
  have hc : Srhd.soundSpeedSquared (Function.update P 1 (-P 1)) g = Srhd.soundSpeedSquared P g := by
    unfold Srhd.soundSpeedSquared
    rw [u4, hH]
  have hb : Srhd.betaAlong (Function.update P 1 (-P 1)) ⟨1, 0, 0⟩ = -Srhd.betaAlong P ⟨1, 0, 0⟩ := by
    unfold Srhd.betaAlong UnitVec.project
    rw [u1, u2, u3, hw]
    ring
  have hh : Srhd.specificEnthalpy (Function.update P 1 (-P 1)) g = Srhd.specificEnthalpy P g := by
    unfold Srhd.specificEnthalpy
    rw [hH, u0]
  refine ⟨?_, hb, ?_⟩
  · unfold Srhd.wavespeeds
    rw [hc, hg, hb]
    refine Prod.ext ?_ ?_
    · dsimp only
      rw [← neg_div, neg_mul_neg]
      congr 1
      ring
    · dsimp only
      rw [← neg_div, neg_mul_neg]
      congr 1
      ring
  · intro i hi
    unfold Srhd.toConserved
    rw [hw, hh, u0, u2, u3, u4]
    fin_cases i
    · rfl
    · exact absurd rfl hi
    · rfl
    · rfl
    · rfl

/-- A reflecting wall stops mass, energy and transverse momentum, in relativistic gas. -/
theorem relativistic_wall (P : Srhd.Vec) (g : ℝ) (i : Fin 5) (hi : i ≠ 1) :
    Srhd.hlle (Function.update P 1 (-P 1)) P ⟨1, 0, 0⟩ g i = 0 := by
  obtain ⟨h1, h2, h3⟩ := relativistic_mirror P g
  have u4 : (Function.update P 1 (-P 1)) 4 = P 4 := Function.update_of_ne (by decide) _ _
  have hf : Srhd.fluxWith (Function.update P 1 (-P 1)) ⟨1, 0, 0⟩ (Srhd.toConserved (Function.update P 1 (-P 1)) g) i
      = -Srhd.fluxWith P ⟨1, 0, 0⟩ (Srhd.toConserved P g) i := by
    unfold Srhd.fluxWith
    rw [h2, u4]
    have k0 := h3 0 (by decide)
    have k2 := h3 2 (by decide)
    have k3 := h3 3 (by decide)
    have k4 := h3 4 (by decide)
    rw [k0, k2, k3, k4]
    fin_cases i
    · simp
    · exact absurd rfl hi
    · simp
    · simp
    · simp
      ring
  unfold Srhd.hlle
  rw [h1, hf, h3 i hi]
  dsimp only
  generalize (Srhd.wavespeeds P ⟨1, 0, 0⟩ g).2 = b
  generalize (Srhd.wavespeeds P ⟨1, 0, 0⟩ g).1 = a
  have e : min 0 (min (-b) a) = -max 0 (max (-a) b) := by
    rw [← Euler.min_neg_neg3, neg_neg, min_comm a (-b)]
  rw [e]
  generalize max 0 (max (-a) b) = c
  rw [show (-Srhd.fluxWith P ⟨1, 0, 0⟩ (Srhd.toConserved P g) i * c - Srhd.fluxWith P ⟨1, 0, 0⟩ (Srhd.toConserved P g) i * -c
    - (Srhd.toConserved P g i - Srhd.toConserved P g i) * c * -c) = 0 by ring, zero_div]

theorem shell_pos {a b : ℝ} (h0 : 0 ≤ a) (h : a < b) : 0 < (b ^ 3 - a ^ 3) / 3 := by
  have : a ^ 3 < b ^ 3 := pow_lt_pow_left₀ h h0 (by norm_num)
  linarith

theorem radius_nonneg {n : Nat} {r : Nat → ℝ} (h0 : 0 ≤ r 0) (hr : ∀ k, k < n → r k < r (k + 1)) :
    ∀ k, k ≤ n → 0 ≤ r k := by
  intro k
  induction k with
  | zero => exact fun _ => h0
  | succ k ih => exact fun hk => le_of_lt (lt_of_le_of_lt (ih (by omega)) (hr k (by omega)))

/-- What is not pushed by the wall and has no source leaves at the outer radius only. -/
theorem budget {P : Type} [Inhabited P] (H : Hydro 5 ℝ P) (cfl : ℝ) (st : State 5 ℝ) (n : Nat) (h1 : 1 ≤ n) (hn : n < 2 ^ 31)
    (r : Nat → ℝ) (u : Nat → Vec 5 ℝ) (hr : Line st.vertices (n + 1) r) (hu : Line st.conserved n u) (h0 : 0 ≤ r 0)
    (hmono : ∀ k, k < n → r k < r (k + 1)) (p : Nat → P) (F S : Nat → Vec 5 ℝ)
    (hp : ∀ k, k < n → H.recover (fun a => u k a / ((r (k + 1) ^ 3 - r k ^ 3) / 3)) = .ok (p k))
    (hF0 : H.riemann (H.mirror (p 0)) (p 0) = .ok (F 0))
    (hF : ∀ k, 0 < k → k < n → H.riemann (p (k - 1)) (p k) = .ok (F k))
    (hFn : H.riemann (p (n - 1)) (p (n - 1)) = .ok (F n))
    (hS : ∀ k, k < n → H.source (p k) ((r k + r (k + 1)) / 2) = .ok (S k))
    (G : Vec 5 ℝ) (hw : ∀ a, a ≠ 1 → F 0 a = 0) (hs : ∀ k a, a ≠ 1 → S k a = 0) (hG : F n = G) :
    ∃ st' u', nextSolution H cfl st = .ok st' ∧ st'.vertices = st.vertices ∧ Line st'.conserved n u'
      ∧ ∀ a, a ≠ 1 → ∑ k ∈ Finset.range n, u' k a = ∑ k ∈ Finset.range n, u k a - cfl * (r 1 - r 0) * r n ^ 2 * G a := by
  have hpos := radius_nonneg h0 hmono
  obtain ⟨st', u', e, hv, _, hu', _, ht⟩ := spherical_balance H cfl st n h1 hn r u hr hu (by norm_num)
    (fun k hk => by
      have := shell_pos (hpos k (by omega)) (hmono k hk)
      intro hh
      rw [hh] at this
      norm_num at this) p F S hp hF0 hF hFn hS
  refine ⟨st', u', e, hv, hu', fun a ha => ?_⟩
  have hz : ∑ k ∈ Finset.range n, S k a * ((r (k + 1) ^ 3 - r k ^ 3) / 3) = 0 :=
    Finset.sum_eq_zero fun k _ => by rw [hs k a ha, zero_mul]
  rw [ht a, hw a ha, hG, hz]
  ring

/-- **C89.** A step of the Newtonian program: for gas of positive mass and pressure on radii that grow outwards, the step succeeds,
and mass and energy on the grid change only by what leaves through the outermost face with the density, velocity and pressure of the
last cell. -/
theorem newtonian_budget (g : ℝ) (hg : 1 < g) (cfl : ℝ) (st : State 5 ℝ) (n : Nat) (h1 : 1 ≤ n) (hn : n < 2 ^ 31)
    (r : Nat → ℝ) (u : Nat → Vec 5 ℝ) (hr : Line st.vertices (n + 1) r) (hu : Line st.conserved n u) (h0 : 0 ≤ r 0)
    (hmono : ∀ k, k < n → r k < r (k + 1))
    (hphys : ∀ k, k < n → 0 < u k 0 ∧ (u k 1 ^ 2 + u k 2 ^ 2 + u k 3 ^ 2) / (2 * u k 0) < u k 4) :
    ∃ st' u', nextSolution (newtonian g) cfl st = .ok st' ∧ st'.vertices = st.vertices ∧ Line st'.conserved n u'
      ∧ ∃ V m v p E, V = (r n ^ 3 - r (n - 1) ^ 3) / 3 ∧ m = u (n - 1) 0 ∧ v = u (n - 1) 1 / m ∧ E = u (n - 1) 4
        ∧ p * V = (g - 1) * (E - (u (n - 1) 1 ^ 2 + u (n - 1) 2 ^ 2 + u (n - 1) 3 ^ 2) / (2 * m))
        ∧ ∑ k ∈ Finset.range n, u' k 0 = ∑ k ∈ Finset.range n, u k 0 - cfl * (r 1 - r 0) * r n ^ 2 * (m / V * v)
        ∧ ∑ k ∈ Finset.range n, u' k 4 = ∑ k ∈ Finset.range n, u k 4 - cfl * (r 1 - r 0) * r n ^ 2 * ((E / V + p) * v) := by
  have hpos := radius_nonneg h0 hmono
  have hV : ∀ k, k < n → 0 < (r (k + 1) ^ 3 - r k ^ 3) / 3 := fun k hk => shell_pos (hpos k (by omega)) (hmono k hk)
  obtain ⟨q, hq⟩ : ∃ q : Nat → Euler.Vec, q = fun k => Euler.recover (fun a => u k a / ((r (k + 1) ^ 3 - r k ^ 3) / 3)) g 0 :=
    ⟨_, rfl⟩
  have hq4 : ∀ k, k < n → q k 4 * ((r (k + 1) ^ 3 - r k ^ 3) / 3)
      = (g - 1) * (u k 4 - (u k 1 ^ 2 + u k 2 ^ 2 + u k 3 ^ 2) / (2 * u k 0)) := by
    intro k hk
    have hVk := hV k hk
    have hm := (hphys k hk).1
    rw [hq]
    dsimp only
    generalize (r (k + 1) ^ 3 - r k ^ 3) / 3 = V at hVk
    show Euler.floored _ _ 0 * V = _
    unfold Euler.floored
    rw [if_neg (fun hh => lt_irrefl _ hh.2)]
    dsimp only
    field_simp
    try ring
  have hphysq : ∀ k, k < n → 0 < q k 0 ∧ 0 < q k 4 := by
    intro k hk
    have hVk := hV k hk
    refine ⟨?_, ?_⟩
    · rw [hq]
      exact div_pos (hphys k hk).1 hVk
    · refine pos_of_mul_pos_left (b := (r (k + 1) ^ 3 - r k ^ 3) / 3) ?_ hVk.le
      rw [hq4 k hk]
      exact mul_pos (by linarith) (by linarith [(hphys k hk).2])
  have hm0 : ∀ P : Euler.Vec, (Function.update P 1 (-P 1)) 0 = P 0 := fun P => Function.update_of_ne (by decide) _ _
  have hm4 : ∀ P : Euler.Vec, (Function.update P 1 (-P 1)) 4 = P 4 := fun P => Function.update_of_ne (by decide) _ _
  have hlast := hphysq (n - 1) (by omega)
  obtain ⟨st', u', e, hv, hu', hb⟩ := budget (newtonian g) cfl st n h1 hn r u hr hu h0 hmono q
    (fun k => if k = 0 then Euler.hlle (Function.update (q 0) 1 (-q 0 1)) (q 0) ⟨1, 0, 0⟩ g
      else if k = n then Euler.hlle (q (n - 1)) (q (n - 1)) ⟨1, 0, 0⟩ g else Euler.hlle (q (k - 1)) (q k) ⟨1, 0, 0⟩ g)
    (fun k => Euler.sphericalSourceRadial (q k) ((r k + r (k + 1)) / 2))
    (fun k hk => by
      rw [hq]
      exact if_neg (div_ne_zero (hphys k hk).1.ne' (hV k hk).ne'))
    (by
      have h := hphysq 0 (by omega)
      rw [if_pos rfl]
      refine if_pos ⟨?_, ?_, h.1, h.2⟩
      · exact lt_of_lt_of_eq h.1 (hm0 (q 0)).symm
      · exact lt_of_lt_of_eq h.2 (hm4 (q 0)).symm)
    (fun k hk0 hk => by
      rw [if_neg (by omega), if_neg (by omega)]
      have h := hphysq (k - 1) (by omega)
      have h' := hphysq k hk
      exact if_pos ⟨h.1, h.2, h'.1, h'.2⟩)
    (by
      rw [if_neg (by omega), if_pos rfl]
      exact if_pos ⟨hlast.1, hlast.2, hlast.1, hlast.2⟩)
    (fun k hk => by
      refine if_neg (ne_of_gt ?_)
      have := hpos k (by omega)
      have := hmono k hk
      linarith)
    (Euler.flux (q (n - 1)) ⟨1, 0, 0⟩ g)
    (fun a ha => by
      rw [if_pos rfl]
      exact newtonian_wall (q 0) g a ha)
    (fun k a ha => by
      unfold Euler.sphericalSourceRadial
      fin_cases a
      · rfl
      · exact absurd rfl ha
      · rfl
      · rfl
      · rfl)
    (by
      rw [if_neg (by omega), if_pos rfl]
      exact Euler.hlle_consistent _ hlast _ _ hg)
  have hVl := hV (n - 1) (by omega)
  have h4 := hq4 (n - 1) (by omega)
  rw [Nat.sub_add_cancel h1] at hVl h4
  have hml := (hphys (n - 1) (by omega)).1
  have hq0 : q (n - 1) 0 = u (n - 1) 0 / ((r n ^ 3 - r (n - 1) ^ 3) / 3) := by
    rw [hq]
    dsimp only
    rw [Nat.sub_add_cancel h1]
    rfl
  have hqi : ∀ i : Fin 5, i = 1 ∨ i = 2 ∨ i = 3 → q (n - 1) i = u (n - 1) i / u (n - 1) 0 := by
    intro i hi
    rw [hq]
    dsimp only
    rw [Nat.sub_add_cancel h1]
    have : ∀ x : ℝ, x / ((r n ^ 3 - r (n - 1) ^ 3) / 3) / (u (n - 1) 0 / ((r n ^ 3 - r (n - 1) ^ 3) / 3)) = x / u (n - 1) 0 :=
      fun x => div_div_div_cancel_right₀ hVl.ne' _ _
    rcases hi with rfl | rfl | rfl <;> exact this _
  refine ⟨st', u', e, hv, hu', _, _, _, q (n - 1) 4, _, rfl, rfl, rfl, rfl, h4, ?_, ?_⟩
  · rw [hb 0 (by decide)]
    show _ - _ * (Euler.velocityAlong (q (n - 1)) ⟨1, 0, 0⟩ * q (n - 1) 0) = _
    unfold Euler.velocityAlong UnitVec.project
    rw [hqi 1 (by simp), hq0]
    ring
  · rw [hb 4 (by decide)]
    show _ - _ * (Euler.velocityAlong (q (n - 1)) ⟨1, 0, 0⟩ * (1 / 2 * q (n - 1) 0 * Euler.velocitySquared (q (n - 1)) + q (n - 1) 4 / (g - 1))
      + q (n - 1) 4 * Euler.velocityAlong (q (n - 1)) ⟨1, 0, 0⟩) = _
    have hE : 1 / 2 * q (n - 1) 0 * Euler.velocitySquared (q (n - 1)) + q (n - 1) 4 / (g - 1)
        = u (n - 1) 4 / ((r n ^ 3 - r (n - 1) ^ 3) / 3) := by
      have hgm : g - 1 ≠ 0 := by linarith
      rw [eq_div_iff hVl.ne', add_mul, div_mul_eq_mul_div (q (n - 1) 4), h4, hq0]
      unfold Euler.velocitySquared
      rw [hqi 1 (by simp), hqi 2 (by simp), hqi 3 (by simp)]
      generalize (r n ^ 3 - r (n - 1) ^ 3) / 3 = V at hVl
      field_simp
      ring
    rw [hE]
    unfold Euler.velocityAlong UnitVec.project
    rw [hqi 1 (by simp)]
    ring

/-- **C89.** A step of the relativistic program: if primitive quantities can be found for every cell, the step succeeds, and rest mass
and energy on the grid change only by what leaves through the outermost face with the primitive quantities of the last cell. -/
theorem relativistic_budget (g : ℝ) (hg : 1 < g) (hg2 : g ≤ 2) (cfl : ℝ) (st : State 5 ℝ) (n : Nat) (h1 : 1 ≤ n) (hn : n < 2 ^ 31)
    (r : Nat → ℝ) (u : Nat → Vec 5 ℝ) (hr : Line st.vertices (n + 1) r) (hu : Line st.conserved n u) (h0 : 0 ≤ r 0)
    (hmono : ∀ k, k < n → r k < r (k + 1)) (q : Nat → Srhd.Vec)
    (hq : ∀ k, k < n → Srhd.recover (fun a => u k a / ((r (k + 1) ^ 3 - r k ^ 3) / 3)) g 0 = .ok (q k)) :
    ∃ st' u', nextSolution (relativistic g) cfl st = .ok st' ∧ st'.vertices = st.vertices ∧ Line st'.conserved n u'
      ∧ ∃ d p s W h, d = q (n - 1) 0 ∧ p = q (n - 1) 4 ∧ s = q (n - 1) 1 ∧ 0 < W
        ∧ W ^ 2 = 1 + q (n - 1) 1 ^ 2 + q (n - 1) 2 ^ 2 + q (n - 1) 3 ^ 2 ∧ h = d + g / (g - 1) * p
        ∧ ∑ k ∈ Finset.range n, u' k 0 = ∑ k ∈ Finset.range n, u k 0 - cfl * (r 1 - r 0) * r n ^ 2 * (d * s)
        ∧ ∑ k ∈ Finset.range n, u' k 4 = ∑ k ∈ Finset.range n, u k 4 - cfl * (r 1 - r 0) * r n ^ 2 * ((h * W - d) * s) := by
  have hpos := radius_nonneg h0 hmono
  have hphysq : ∀ k, k < n → 0 < q k 0 ∧ 0 < q k 4 := fun k hk => (Srhd.recover_physical _ g 0 _ (hq k hk)).1
  have hm0 : ∀ P : Srhd.Vec, (Function.update P 1 (-P 1)) 0 = P 0 := fun P => Function.update_of_ne (by decide) _ _
  have hm4 : ∀ P : Srhd.Vec, (Function.update P 1 (-P 1)) 4 = P 4 := fun P => Function.update_of_ne (by decide) _ _
  have hlast := hphysq (n - 1) (by omega)
  obtain ⟨st', u', e, hv, hu', hb⟩ := budget (relativistic g) cfl st n h1 hn r u hr hu h0 hmono q
    (fun k => if k = 0 then Srhd.hlle (Function.update (q 0) 1 (-q 0 1)) (q 0) ⟨1, 0, 0⟩ g
      else if k = n then Srhd.hlle (q (n - 1)) (q (n - 1)) ⟨1, 0, 0⟩ g else Srhd.hlle (q (k - 1)) (q k) ⟨1, 0, 0⟩ g)
    (fun k => Srhd.sphericalSourceRadial (q k) ((r k + r (k + 1)) / 2) g)
    hq
    (by
      have h := hphysq 0 (by omega)
      rw [if_pos rfl]
      refine if_pos ⟨?_, ?_, h.1, h.2⟩
      · exact lt_of_lt_of_eq h.1 (hm0 (q 0)).symm
      · exact lt_of_lt_of_eq h.2 (hm4 (q 0)).symm)
    (fun k hk0 hk => by
      rw [if_neg (by omega), if_neg (by omega)]
      have h := hphysq (k - 1) (by omega)
      have h' := hphysq k hk
      exact if_pos ⟨h.1, h.2, h'.1, h'.2⟩)
    (by
      rw [if_neg (by omega), if_pos rfl]
      exact if_pos ⟨hlast.1, hlast.2, hlast.1, hlast.2⟩)
    (fun k hk => by
      refine if_neg (ne_of_gt ?_)
      have := hpos k (by omega)
      have := hmono k hk
      linarith)
    (Srhd.flux (q (n - 1)) ⟨1, 0, 0⟩ g)
    (fun a ha => by
      rw [if_pos rfl]
      exact relativistic_wall (q 0) g a ha)
    (fun k a ha => by
      unfold Srhd.sphericalSourceRadial
      fin_cases a
      · rfl
      · exact absurd rfl ha
      · rfl
      · rfl
      · rfl)
    (by
      rw [if_neg (by omega), if_pos rfl]
      exact Srhd.hlle_consistent _ hlast _ (by unfold Srhd.UnitLength; norm_num) _ hg hg2)
  have hgb : 0 ≤ Srhd.gammaBetaSquared (q (n - 1)) := by
    unfold Srhd.gammaBetaSquared
    linarith [mul_self_nonneg (q (n - 1) 1), mul_self_nonneg (q (n - 1) 2), mul_self_nonneg (q (n - 1) 3)]
  have hWpos : 0 < Srhd.lorentzFactor (q (n - 1)) := by
    unfold Srhd.lorentzFactor
    exact Real.sqrt_pos.mpr (by linarith)
  have hb1 : Srhd.betaAlong (q (n - 1)) ⟨1, 0, 0⟩ = q (n - 1) 1 / Srhd.lorentzFactor (q (n - 1)) := by
    unfold Srhd.betaAlong UnitVec.project
    ring
  refine ⟨st', u', e, hv, hu', _, _, _, Srhd.lorentzFactor (q (n - 1)), Srhd.enthalpyDensity (q (n - 1)) g, rfl, rfl, rfl, hWpos, ?_, ?_, ?_, ?_⟩
  · unfold Srhd.lorentzFactor
    rw [Real.sq_sqrt (by linarith)]
    unfold Srhd.gammaBetaSquared
    ring
  · have hgm : g - 1 ≠ 0 := by linarith
    unfold Srhd.enthalpyDensity
    field_simp
    ring
  · rw [hb 0 (by decide)]
    show _ - _ * (Srhd.betaAlong (q (n - 1)) ⟨1, 0, 0⟩ * (q (n - 1) 0 * Srhd.lorentzFactor (q (n - 1)))) = _
    rw [hb1]
    field_simp
  · rw [hb 4 (by decide)]
    show _ - _ * (Srhd.betaAlong (q (n - 1)) ⟨1, 0, 0⟩ * (q (n - 1) 0 * Srhd.lorentzFactor (q (n - 1)) * Srhd.specificEnthalpy (q (n - 1)) g
      * Srhd.lorentzFactor (q (n - 1)) - q (n - 1) 4 - q (n - 1) 0 * Srhd.lorentzFactor (q (n - 1)))
      + q (n - 1) 4 * Srhd.betaAlong (q (n - 1)) ⟨1, 0, 0⟩) = _
    have hd := hlast.1.ne'
    rw [hb1]
    unfold Srhd.specificEnthalpy
    field_simp
    ring

/-- Uniform gas at rest. -/
theorem rest_flux (d p : ℝ) (hd : 0 < d) (hp : 0 < p) (g : ℝ) (hg : 1 < g) :
    Euler.hlle ![d, 0, 0, 0, p] ![d, 0, 0, 0, p] ⟨1, 0, 0⟩ g = ![0, p, 0, 0, 0] := by
  rw [Euler.hlle_consistent _ ⟨hd, hp⟩ _ _ hg]
  funext i
  unfold Euler.flux Euler.fluxWith Euler.velocityAlong UnitVec.project
  fin_cases i <;> simp

/-- **C90.** Uniform gas at rest does not stay at rest on any grid: a step keeps the mass and energy of each cell, but pushes every
cell outwards. The source term `2 p / r` is taken at the mean radius of the cell, and the areas of the two faces differ by less than
twice the volume over that radius. -/
theorem rest_violated (g : ℝ) (hg : 1 < g) (cfl : ℝ) (hcfl : 0 < cfl) (st : State 5 ℝ) (n : Nat) (h1 : 1 ≤ n) (hn : n < 2 ^ 31)
    (r : Nat → ℝ) (u : Nat → Vec 5 ℝ) (hr : Line st.vertices (n + 1) r) (hu : Line st.conserved n u) (h0 : 0 ≤ r 0)
    (hmono : ∀ k, k < n → r k < r (k + 1)) (d p : ℝ) (hd : 0 < d) (hp : 0 < p)
    (hrest : ∀ k, k < n → u k = fun a => (![d, 0, 0, 0, p / (g - 1)] : Vec 5 ℝ) a * ((r (k + 1) ^ 3 - r k ^ 3) / 3)) :
    ∃ st' u', nextSolution (newtonian g) cfl st = .ok st' ∧ Line st'.conserved n u'
      ∧ ∀ k, k < n → u' k 0 = u k 0 ∧ u' k 2 = u k 2 ∧ u' k 3 = u k 3 ∧ u' k 4 = u k 4
        ∧ u' k 1 = cfl * (r 1 - r 0) * p * (r (k + 1) - r k) ^ 3 / (3 * (r (k + 1) + r k)) ∧ u k 1 < u' k 1 := by
  have hpos := radius_nonneg h0 hmono
  have hV : ∀ k, k < n → 0 < (r (k + 1) ^ 3 - r k ^ 3) / 3 := fun k hk => shell_pos (hpos k (by omega)) (hmono k hk)
  have hgm : g - 1 ≠ 0 := by linarith
  obtain ⟨st', u', e, _, _, hu', hc, _⟩ := spherical_balance (newtonian g) cfl st n h1 hn r u hr hu (by norm_num)
    (fun k hk hh => by
      have := hV k hk
      rw [hh] at this
      norm_num at this) (fun _ => ![d, 0, 0, 0, p])
    (fun _ => ![0, p, 0, 0, 0]) (fun k => Euler.sphericalSourceRadial ![d, 0, 0, 0, p] ((r k + r (k + 1)) / 2))
    (fun k hk => by
      have hVk := hV k hk
      rw [hrest k hk]
      generalize (r (k + 1) ^ 3 - r k ^ 3) / 3 = V at hVk
      have hh : (fun a => (![d, 0, 0, 0, p / (g - 1)] : Vec 5 ℝ) a * V / V) = ![d, 0, 0, 0, p / (g - 1)] := by
        funext a
        field_simp
      rw [hh]
      show (if d = 0 then _ else _) = _
      rw [if_neg hd.ne']
      refine congrArg _ ?_
      funext i
      unfold Euler.recover Euler.floored
      fin_cases i <;> simp
      field_simp)
    (by
      have hm : Function.update (![d, 0, 0, 0, p] : Euler.Vec) 1 (-(![d, 0, 0, 0, p] : Euler.Vec) 1) = ![d, 0, 0, 0, p] := by
        funext i
        fin_cases i <;> simp [Function.update]
      show (if _ then Outcome.ok (Euler.hlle (Function.update (![d, 0, 0, 0, p] : Euler.Vec) 1 (-(![d, 0, 0, 0, p] : Euler.Vec) 1)) _ _ _) else _) = _
      rw [hm, rest_flux d p hd hp g hg]
      exact if_pos ⟨by rw [show (newtonian g).mirror ![d, 0, 0, 0, p] = ![d, 0, 0, 0, p] from hm]; exact hd,
        by rw [show (newtonian g).mirror ![d, 0, 0, 0, p] = ![d, 0, 0, 0, p] from hm]; exact hp, hd, hp⟩)
    (fun k _ _ => by
      show (if _ then Outcome.ok (Euler.hlle _ _ _ _) else _) = _
      rw [rest_flux d p hd hp g hg]
      exact if_pos ⟨hd, hp, hd, hp⟩)
    (by
      show (if _ then Outcome.ok (Euler.hlle _ _ _ _) else _) = _
      rw [rest_flux d p hd hp g hg]
      exact if_pos ⟨hd, hp, hd, hp⟩)
    (fun k hk => by
      refine if_neg (ne_of_gt ?_)
      have := hpos k (by omega)
      have := hmono k hk
      linarith)
  refine ⟨st', u', e, hu', fun k hk => ?_⟩
  have hk0 := hpos k (by omega)
  have hk1 := hmono k hk
  have hm1 : u k 1 = 0 := by
    rw [hrest k hk]
    exact zero_mul _
  have hform : u' k 1 = cfl * (r 1 - r 0) * p * (r (k + 1) - r k) ^ 3 / (3 * (r (k + 1) + r k)) := by
    rw [hc k 1, hm1]
    show 0 + cfl * (r 1 - r 0) * (p * r k ^ 2 - p * r (k + 1) ^ 2 + (2 * p + d * 0 * 0) / ((r k + r (k + 1)) / 2) * ((r (k + 1) ^ 3 - r k ^ 3) / 3)) = _
    have : r k + r (k + 1) ≠ 0 := by linarith
    have : r (k + 1) + r k ≠ 0 := by linarith
    field_simp
    ring
  refine ⟨?_, ?_, ?_, ?_, hform, ?_⟩
  · rw [hc k 0]
    show _ + _ * (0 * _ - 0 * _ + 0 * _) = _
    ring
  · rw [hc k 2]
    show _ + _ * (0 * _ - 0 * _ + 0 * _) = _
    ring
  · rw [hc k 3]
    show _ + _ * (0 * _ - 0 * _ + 0 * _) = _
    ring
  · rw [hc k 4]
    show _ + _ * (0 * _ - 0 * _ + 0 * _) = _
    ring
  · rw [hform, hm1]
    have h2 : 0 < r 1 - r 0 := by linarith [hmono 0 (by omega)]
    have h3 : 0 < (r (k + 1) - r k) ^ 3 := pow_pos (by linarith) _
    have h4 : 0 < 3 * (r (k + 1) + r k) := by linarith
    positivity

/-- **C90**, what holds: a step keeps the mass and energy of uniform gas at rest exactly, and the velocity that it gives to a cell is of
second order in the width of the cell. -/
theorem rest_partial (g : ℝ) (hg : 1 < g) (cfl : ℝ) (hcfl : 0 < cfl) (st : State 5 ℝ) (n : Nat) (h1 : 1 ≤ n) (hn : n < 2 ^ 31)
    (r : Nat → ℝ) (u : Nat → Vec 5 ℝ) (hr : Line st.vertices (n + 1) r) (hu : Line st.conserved n u) (h0 : 0 ≤ r 0)
    (hmono : ∀ k, k < n → r k < r (k + 1)) (d p : ℝ) (hd : 0 < d) (hp : 0 < p)
    (hrest : ∀ k, k < n → u k = fun a => (![d, 0, 0, 0, p / (g - 1)] : Vec 5 ℝ) a * ((r (k + 1) ^ 3 - r k ^ 3) / 3)) :
    ∃ st' u', nextSolution (newtonian g) cfl st = .ok st' ∧ Line st'.conserved n u'
      ∧ ∀ k, k < n → u' k 0 = u k 0 ∧ u' k 2 = 0 ∧ u' k 3 = 0 ∧ u' k 4 = u k 4
        ∧ 0 ≤ u' k 1 / u' k 0
        ∧ u' k 1 / u' k 0 ≤ 4 / 3 * cfl * (r 1 - r 0) * (p / d) * (r (k + 1) - r k) ^ 2 / (r (k + 1) + r k) ^ 3 := by
  obtain ⟨st', u', e, hl, hk⟩ := rest_violated g hg cfl hcfl st n h1 hn r u hr hu h0 hmono d p hd hp hrest
  refine ⟨st', u', e, hl, fun k hkn => ?_⟩
  obtain ⟨e0, e2, e3, e4, e1, _⟩ := hk k hkn
  have hu0 : u k 0 = d * ((r (k + 1) ^ 3 - r k ^ 3) / 3) := by rw [hrest k hkn]; rfl
  have hu2 : u k 2 = 0 := by rw [hrest k hkn]; exact zero_mul _
  have hu3 : u k 3 = 0 := by rw [hrest k hkn]; exact zero_mul _
  have hp0 := radius_nonneg h0 hmono k (by omega)
  have hm := hmono k hkn
  have hm0 := hmono 0 (by omega)
  rw [zero_add] at hm0
  refine ⟨e0, e2.trans hu2, e3.trans hu3, e4, ?_⟩
  rw [e1, e0, hu0]
  generalize r (k + 1) = b at *
  generalize r k = a at *
  generalize hδ : r 1 - r 0 = δ
  have hδ0 : 0 < δ := by rw [← hδ]; linarith
  have hab : 0 < b + a := by linarith
  have hba : 0 < b - a := by linarith
  have hV : 0 < b ^ 3 - a ^ 3 := by
    have : b ^ 3 - a ^ 3 = (b - a) * (((b + a) ^ 2 * 3 + (b - a) ^ 2) / 4) := by ring
    rw [this]; positivity
  constructor
  · positivity
  · rw [div_le_div_iff₀ (by positivity) (by positivity), div_mul_eq_mul_div, div_le_iff₀ (by positivity)]
    have key : cfl * δ * p * (b - a) ^ 3 * (b + a) ^ 3 ≤ cfl * δ * p * (b - a) ^ 2 * (4 / 3 * (b ^ 3 - a ^ 3)) * (b + a) := by
      have : 4 / 3 * (b ^ 3 - a ^ 3) * (b + a) = (b - a) * (b + a) ^ 3 + (b - a) ^ 3 * (b + a) / 3 := by ring
      have h : 0 ≤ cfl * δ * p * (b - a) ^ 2 * ((b - a) ^ 3 * (b + a) / 3) := by positivity
      linear_combination h - cfl * δ * p * (b - a) ^ 2 * this
    calc cfl * δ * p * (b - a) ^ 3 * (b + a) ^ 3 ≤ _ := key
      _ = 4 / 3 * cfl * δ * (p / d) * (b - a) ^ 2 * (d * ((b ^ 3 - a ^ 3) / 3)) * (3 * (b + a)) := by
        field_simp

/-- Radii 1, 2, 3. -/
noncomputable def radii : Arr 1 ℝ := ⟨fun _ => 3, fun i => .ok ((i 0 : ℝ) + 1)⟩

theorem radii_line : Line radii 3 (fun k => (k : ℝ) + 1) := ⟨rfl, fun _ _ => rfl⟩

example : ∃ V v, cellVolumes radii = .ok V ∧ Line V 2 v ∧ v 0 = 7 / 3 ∧ v 1 = 19 / 3 := by
  obtain ⟨⟨V, v, e, hV, h, _⟩, _⟩ := shells radii 2 (by norm_num) _ radii_line
  refine ⟨V, v, e, hV, ?_, ?_⟩
  · rw [h 0 (by omega), integral_pow]
    norm_num
  · rw [h 1 (by omega), integral_pow]
    norm_num

/-- Moving gas meets the hypotheses of `newtonian_budget`. -/
example : ∃ st' u', nextSolution (newtonian (5 / 3)) (2 / 5) ⟨0, radii, ⟨fun _ => 2, fun _ => .ok ![1, 1, 0, 0, 2]⟩⟩ = .ok st'
    ∧ Line st'.conserved 2 u' ∧ ∑ k ∈ Finset.range 2, u' k 0 = 2 - 2 / 5 * 9 * (3 / 19) := by
  obtain ⟨st', u', e, _, h, V, m, v, p, E, rfl, rfl, rfl, rfl, _, h0, _⟩ := newtonian_budget (5 / 3) (by norm_num) (2 / 5)
    ⟨0, radii, ⟨fun _ => 2, fun _ => .ok ![1, 1, 0, 0, 2]⟩⟩ 2 (by omega) (by norm_num) _ (fun _ => ![1, 1, 0, 0, 2]) radii_line ⟨rfl, fun _ _ => rfl⟩
    (by norm_num) (fun k _ => by push_cast; linarith) (fun k _ => by
      refine ⟨one_pos, ?_⟩
      show ((1 : ℝ) ^ 2 + 0 ^ 2 + 0 ^ 2) / (2 * 1) < 2
      norm_num)
  refine ⟨st', u', e, h, ?_⟩
  rw [h0]
  show _ - _ * (1 / _ * (1 / 1)) = _
  norm_num [Finset.sum_range_succ]

/-- Gas at rest meets the hypotheses of `rest_violated` and of `relativistic_budget`. -/
example : ∃ st' u', nextSolution (newtonian (5 / 3)) (2 / 5)
    ⟨0, radii, ⟨fun _ => 2, fun i => .ok fun a => (![1, 0, 0, 0, 1 / (5 / 3 - 1)] : Vec 5 ℝ) a
      * ((((i 0 + 1 : Nat) : ℝ) + 1) ^ 3 - ((i 0 : ℝ) + 1) ^ 3) / 3⟩⟩ = .ok st' ∧ Line st'.conserved 2 u' ∧ u' 0 1 = 2 / 45 := by
  obtain ⟨st', u', e, h, hk⟩ := rest_violated (5 / 3) (by norm_num) (2 / 5) (by norm_num)
    ⟨0, radii, ⟨fun _ => 2, fun i => .ok fun a => (![1, 0, 0, 0, 1 / (5 / 3 - 1)] : Vec 5 ℝ) a
      * ((((i 0 + 1 : Nat) : ℝ) + 1) ^ 3 - ((i 0 : ℝ) + 1) ^ 3) / 3⟩⟩ 2 (by omega) (by norm_num) _ _ radii_line ⟨rfl, fun _ _ => rfl⟩
    (by norm_num) (fun k _ => by push_cast; linarith) 1 1 one_pos one_pos (fun k _ => by
      funext a
      exact mul_div_assoc _ _ _)
  refine ⟨st', u', e, h, ?_⟩
  rw [(hk 0 (by omega)).2.2.2.2.1]
  norm_num

example : ∃ st' u', nextSolution (relativistic (4 / 3)) (2 / 5)
    ⟨0, radii, ⟨fun _ => 2, fun i => .ok fun a => Srhd.toConserved ![1, 0, 0, 0, 1] (4 / 3) a
      * (((((i 0 + 1 : Nat) : ℝ) + 1) ^ 3 - ((i 0 : ℝ) + 1) ^ 3) / 3)⟩⟩ = .ok st' ∧ Line st'.conserved 2 u' := by
  obtain ⟨st', u', e, _, h, _⟩ := relativistic_budget (4 / 3) (by norm_num) (by norm_num) (2 / 5)
    ⟨0, radii, ⟨fun _ => 2, fun i => .ok fun a => Srhd.toConserved ![1, 0, 0, 0, 1] (4 / 3) a
      * (((((i 0 + 1 : Nat) : ℝ) + 1) ^ 3 - ((i 0 : ℝ) + 1) ^ 3) / 3)⟩⟩ 2 (by omega) (by norm_num) _ _ radii_line ⟨rfl, fun _ _ => rfl⟩
    (by norm_num) (fun k _ => by push_cast; linarith) (fun _ => ![1, 0, 0, 0, 1]) (fun k _ => by
      have hV : 0 < (((((k + 1 : Nat) : ℝ) + 1) ^ 3 - ((k : ℝ) + 1) ^ 3) / 3) := shell_pos (by positivity) (by push_cast; linarith)
      generalize (((((k + 1 : Nat) : ℝ) + 1) ^ 3 - ((k : ℝ) + 1) ^ 3) / 3) = V at hV
      rw [show (fun a => Srhd.toConserved ![1, 0, 0, 0, 1] (4 / 3) a * V / V) = Srhd.toConserved ![1, 0, 0, 0, 1] (4 / 3) from by
        funext a
        field_simp]
      exact Srhd.recover_rest _ ⟨one_pos, one_pos⟩ rfl rfl rfl _ (by norm_num) 0 (by rw [zero_mul]; exact zero_le_one))
  exact ⟨st', u', e, h⟩

end Verif.Sedov
