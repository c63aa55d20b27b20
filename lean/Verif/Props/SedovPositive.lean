import Verif.Props.SedovGas
import Verif.Props.SedovSeries
import Verif.Props.EulerRiemann
import Verif.Props.SrhdRiemann
import Verif.Spec.SedovPositive

/-!
# The Sedov program keeps the gas a gas (C118)
-/

namespace Verif.Euler

open Geometry

/-- What is left of a share `a` of a cell after a flux through the face on its right, compared with the flux in the cell. -/
theorem admissible_right {P Pr : Vec} (h : Physical P) (hr : Physical Pr) {g : ℝ} (hg : 1 < g) (n : UnitVec ℝ) (hn : n.HasUnitLength)
    (hl : -1 < (wavespeeds P n g).1) (hl' : -1 < (wavespeeds Pr n g).1) {a c : ℝ} (hc : 0 < c) (hca : c ≤ a) :
    Admissible (fun i => a * toConserved P g i - c * (hlle P Pr n g i - flux P n g i)) := by
  obtain ⟨ap, hap⟩ : ∃ ap, ap = max 0 (max (wavespeeds P n g).2 (wavespeeds Pr n g).2) := ⟨_, rfl⟩
  obtain ⟨am, ham⟩ : ∃ am, am = min 0 (min (wavespeeds P n g).1 (wavespeeds Pr n g).1) := ⟨_, rfl⟩
  have hlt : am < ap := by rw [hap, ham]; exact speeds_lt Pr n h hg
  have hstar := admissible_star h hr hg n hn ap am (by rw [hap]; exact (le_max_right _ _).trans (le_max_right _ _))
    (by rw [ham]; exact (min_le_right _ _).trans (min_le_left _ _)) hlt
  have ham1 : -1 < am := by
    rw [ham]
    exact lt_min (by norm_num) (lt_min hl hl')
  have ham0 : am ≤ 0 := by rw [ham]; exact min_le_left _ _
  have e : ∀ i, a * toConserved P g i - c * (hlle P Pr n g i - flux P n g i) =
      (a + c * am) * toConserved P g i + -(c * am) *
        Hlle.star (flux P n g i) (flux Pr n g i) (toConserved P g i) (toConserved Pr g i) ap am := by
    intro i
    rw [hlle_eq, ← hap, ← ham, Hlle.core_star_left _ _ _ _ hlt]
    ring
  rw [funext e]
  have hA := admissible_smul (admissible_toConserved h hg) (s := a + c * am) (by nlinarith)
  rcases eq_or_lt_of_le ham0 with h0 | h0
  · rw [h0] at hA ⊢
    simpa using hA
  · exact admissible_add hA (admissible_smul hstar (by nlinarith))

/-- The same for the face on its left. -/
theorem admissible_left {Pl P : Vec} (hl : Physical Pl) (h : Physical P) {g : ℝ} (hg : 1 < g) (n : UnitVec ℝ) (hn : n.HasUnitLength)
    (hu : (wavespeeds Pl n g).2 < 1) (hu' : (wavespeeds P n g).2 < 1) {a c : ℝ} (hc : 0 < c) (hca : c ≤ a) :
    Admissible (fun i => a * toConserved P g i + c * (hlle Pl P n g i - flux P n g i)) := by
  obtain ⟨ap, hap⟩ : ∃ ap, ap = max 0 (max (wavespeeds Pl n g).2 (wavespeeds P n g).2) := ⟨_, rfl⟩
  obtain ⟨am, ham⟩ : ∃ am, am = min 0 (min (wavespeeds Pl n g).1 (wavespeeds P n g).1) := ⟨_, rfl⟩
  have hlt : am < ap := by rw [hap, ham]; exact speeds_lt P n hl hg
  have hstar := admissible_star hl h hg n hn ap am (by rw [hap]; exact (le_max_right _ _).trans (le_max_right _ _))
    (by rw [ham]; exact (min_le_right _ _).trans (min_le_left _ _)) hlt
  have hap1 : ap < 1 := by
    rw [hap]
    exact max_lt (by norm_num) (max_lt hu hu')
  have hap0 : 0 ≤ ap := by rw [hap]; exact le_max_left _ _
  have e : ∀ i, a * toConserved P g i + c * (hlle Pl P n g i - flux P n g i) =
      (a - c * ap) * toConserved P g i + c * ap *
        Hlle.star (flux Pl n g i) (flux P n g i) (toConserved Pl g i) (toConserved P g i) ap am := by
    intro i
    rw [hlle_eq, ← hap, ← ham, Hlle.core_star_right _ _ _ _ hlt]
    ring
  rw [funext e]
  have hA := admissible_smul (admissible_toConserved h hg) (s := a - c * ap) (by nlinarith)
  rcases eq_or_lt_of_le hap0 with h0 | h0
  · rw [← h0] at hA ⊢
    simpa using hA
  · exact admissible_add hA (admissible_smul hstar (by nlinarith))

/-- Radial gas that works with a rate `b` against its pressure and is pushed by a part `e` of it. -/
theorem admissible_push {P : Vec} (h : Physical P) (h2 : P 2 = 0) (h3 : P 3 = 0) {g : ℝ} (hg : 1 < g) (hg2 : g ≤ 2)
    (hs : |P 1| + Real.sqrt (soundSpeedSquared P g) < 1) {a b e m : ℝ} (hm : 0 < m) (ha : 6 * m ≤ a) (hb0 : 0 ≤ b) (hb : b ≤ 3 * m)
    (he0 : 0 ≤ e) (he : e ≤ m) :
    Admissible (fun i => a * toConserved P g i + (![0, P 4 * e, 0, 0, -(b * P 4 * P 1)] : Vec) i) := by
  have hc := sound_pos h hg
  have hc2 := Real.sq_sqrt (Real.sqrt_pos.1 hc).le
  obtain ⟨h0, h4⟩ := h
  have hv : |P 1| < 1 := by linarith
  have hcs : soundSpeedSquared P g < 1 := by
    rw [← hc2]
    have : Real.sqrt (soundSpeedSquared P g) < 1 := by linarith [abs_nonneg (P 1)]
    nlinarith
  rw [soundSpeedSquared, div_lt_one h0] at hcs
  have ha0 : 0 < a := by linarith
  have hgm : 0 < g - 1 := by linarith
  simp only [Admissible, toConserved, velocitySquared, at0, at1, at2, at3, at4, h2, h3]
  refine ⟨by linarith [mul_pos ha0 h0], ?_⟩
  -- the internal energy is at least what work and push can take
  have hp : P 4 ≤ P 4 / (g - 1) := by rw [le_div_iff₀ hgm]; nlinarith
  have hv1 : (b + e) * P 1 ≤ 4 * m := by
    have : (b + e) * P 1 ≤ (b + e) * 1 := mul_le_mul_of_nonneg_left ((le_abs_self _).trans hv.le) (by linarith)
    linarith
  have hpe : P 4 * e ^ 2 ≤ P 0 * m ^ 2 := by
    have e1 : P 4 ≤ P 0 := by nlinarith
    have e2 : e ^ 2 ≤ m ^ 2 := pow_le_pow_left₀ he0 he 2
    exact mul_le_mul e1 e2 (by positivity) h0.le
  have key : 0 < 2 * a ^ 2 * P 0 * (P 4 / (g - 1)) - 2 * a * P 0 * P 4 * ((b + e) * P 1) - P 4 * (P 4 * e ^ 2) := by
    have k1 : 2 * a ^ 2 * P 0 * P 4 ≤ 2 * a ^ 2 * P 0 * (P 4 / (g - 1)) := mul_le_mul_of_nonneg_left hp (by positivity)
    have k2 : 2 * a * P 0 * P 4 * ((b + e) * P 1) ≤ 2 * a * P 0 * P 4 * (4 * m) := mul_le_mul_of_nonneg_left hv1 (by positivity)
    have k3 : P 4 * (P 4 * e ^ 2) ≤ P 4 * (P 0 * m ^ 2) := mul_le_mul_of_nonneg_left hpe h4.le
    have k4 : 0 < P 0 * P 4 * (2 * a ^ 2 - 8 * a * m - m ^ 2) := by
      refine mul_pos (mul_pos h0 h4) ?_
      nlinarith
    linarith
  have eq : 2 * (a * P 0 + 0) * (a * (1 / 2 * P 0 * (P 1 * P 1 + 0 * 0 + 0 * 0) + P 4 / (g - 1)) + -(b * P 4 * P 1)) -
      ((a * (P 0 * P 1) + P 4 * e) ^ 2 + (a * (P 0 * 0) + 0) ^ 2 + (a * (P 0 * 0) + 0) ^ 2) =
      2 * a ^ 2 * P 0 * (P 4 / (g - 1)) - 2 * a * P 0 * P 4 * ((b + e) * P 1) - P 4 * (P 4 * e ^ 2) := by
    ring
  linarith

end Verif.Euler

namespace Verif.Sedov

open Geometry

/-- The numbers of a shell between the radii `r` and `R`, in a step of the length `dt`. -/
theorem shell_numbers {r R dt k : ℝ} (hr : 0 < r) (hR : r < R) (hdt : 0 < dt) (hk : dt ≤ k * (R - r))
    (hfine : 6 * k * (2 * R ^ 2 - r ^ 2) ≤ R ^ 2 + R * r + r ^ 2) :
    0 < dt * (R ^ 2 - r ^ 2) / 3 ∧
    6 * (dt * (R ^ 2 - r ^ 2) / 3) ≤ (R ^ 3 - r ^ 3) / 3 - 2 * dt * R ^ 2 ∧
    0 ≤ dt * (R - r) ^ 3 / (3 * (R + r)) ∧ dt * (R - r) ^ 3 / (3 * (R + r)) ≤ dt * (R ^ 2 - r ^ 2) / 3 ∧
    (R ^ 3 - r ^ 3) / 3 * (2 / ((r + R) / 2)) * dt = dt * (R ^ 2 - r ^ 2) + dt * (R - r) ^ 3 / (3 * (R + r)) := by
  have hd : 0 < R - r := by linarith
  have hs : 0 < R + r := by linarith
  have hq : 0 < R ^ 2 - r ^ 2 := by nlinarith
  refine ⟨by positivity, ?_, by positivity, ?_, ?_⟩
  · have h1 : dt * (2 * R ^ 2 - r ^ 2) ≤ k * (R - r) * (2 * R ^ 2 - r ^ 2) :=
      mul_le_mul_of_nonneg_right hk (by nlinarith)
    have h2 : (R - r) * (6 * k * (2 * R ^ 2 - r ^ 2)) ≤ (R - r) * (R ^ 2 + R * r + r ^ 2) :=
      mul_le_mul_of_nonneg_left hfine hd.le
    nlinarith
  · rw [div_le_div_iff₀ (by positivity) (by norm_num)]
    have : (R - r) ^ 3 ≤ (R ^ 2 - r ^ 2) * (R + r) := by
      have : (R - r) ^ 2 ≤ (R + r) ^ 2 := pow_le_pow_left₀ hd.le (by linarith) 2
      nlinarith
    nlinarith [mul_le_mul_of_nonneg_left this hdt.le]
  · have hs' : R + r ≠ 0 := hs.ne'
    have hs'' : (r + R) / 2 ≠ 0 := by linarith
    rw [add_comm r R] at hs'' ⊢
    field_simp
    ring

/-- A cell of the Newtonian program. -/
theorem newtonian_cell {Pl P Pr : Euler.Vec} (hl : Euler.Physical Pl) (h : Euler.Physical P) (hr : Euler.Physical Pr) (h2 : P 2 = 0)
    (h3 : P 3 = 0) {g : ℝ} (hg : 1 < g) (hg2 : g ≤ 2) (sl : |Pl 1| + Real.sqrt (Euler.soundSpeedSquared Pl g) < 1)
    (s : |P 1| + Real.sqrt (Euler.soundSpeedSquared P g) < 1) (sr : |Pr 1| + Real.sqrt (Euler.soundSpeedSquared Pr g) < 1)
    {r R dt k : ℝ} (hr0 : 0 < r) (hR : r < R) (hdt : 0 < dt) (hk : dt ≤ k * (R - r))
    (hfine : 6 * k * (2 * R ^ 2 - r ^ 2) ≤ R ^ 2 + R * r + r ^ 2) :
    Euler.Admissible (fun i => (R ^ 3 - r ^ 3) / 3 * Euler.toConserved P g i + dt * (Euler.hlle Pl P ⟨1, 0, 0⟩ g i * r ^ 2
      - Euler.hlle P Pr ⟨1, 0, 0⟩ g i * R ^ 2 + Euler.sphericalSourceRadial P ((r + R) / 2) i * ((R ^ 3 - r ^ 3) / 3))) := by
  obtain ⟨n1, n2, n3, n4, n5⟩ := shell_numbers hr0 hR hdt hk hfine
  have hx : (⟨1, 0, 0⟩ : UnitVec ℝ).HasUnitLength := by unfold UnitVec.HasUnitLength; norm_num
  have hw : ∀ Q : Euler.Vec, |Q 1| + Real.sqrt (Euler.soundSpeedSquared Q g) < 1 →
      -1 < (Euler.wavespeeds Q ⟨1, 0, 0⟩ g).1 ∧ (Euler.wavespeeds Q ⟨1, 0, 0⟩ g).2 < 1 := by
    intro Q hQ
    simp only [Euler.wavespeeds, Euler.velocityAlong, UnitVec.project]
    have h1 := le_abs_self (Q 1)
    have h2 := neg_abs_le (Q 1)
    constructor <;> linarith
  have a1 := Euler.admissible_right h hr hg ⟨1, 0, 0⟩ hx (hw P s).1 (hw Pr sr).1 (c := dt * R ^ 2) (mul_pos hdt (pow_pos (hr0.trans hR) 2)) le_rfl
  have a2 := Euler.admissible_left hl h hg ⟨1, 0, 0⟩ hx (hw Pl sl).2 (hw P s).2 (c := dt * r ^ 2) (by positivity) le_rfl
  have hv : |P 1| < 1 := lt_of_le_of_lt (le_add_of_nonneg_right (Real.sqrt_nonneg _)) s
  have hq : 0 < R ^ 2 - r ^ 2 := by nlinarith
  have hal : (R ^ 3 - r ^ 3) / 3 - 2 * dt * R ^ 2 ≤
      (R ^ 3 - r ^ 3) / 3 - dt * R ^ 2 - dt * r ^ 2 - dt * (R ^ 2 - r ^ 2) * P 1 := by
    have : dt * (R ^ 2 - r ^ 2) * P 1 ≤ dt * (R ^ 2 - r ^ 2) * 1 :=
      mul_le_mul_of_nonneg_left ((le_abs_self _).trans hv.le) (by positivity)
    linarith
  have a3 := Euler.admissible_push h h2 h3 hg hg2 s n1 (n2.trans hal) (b := dt * (R ^ 2 - r ^ 2)) (by positivity) (by linarith) n3 n4
  have hS : ∀ i, Euler.sphericalSourceRadial P ((r + R) / 2) i * ((R ^ 3 - r ^ 3) / 3) * dt =
      (![0, P 4 * (dt * (R ^ 2 - r ^ 2) + dt * (R - r) ^ 3 / (3 * (R + r))), 0, 0, 0] : Euler.Vec) i := by
    rw [← n5]
    refine Euler.forall5 ?_ ?_ ?_ ?_ ?_ <;> simp only [Euler.sphericalSourceRadial, Euler.at0, Euler.at1, Euler.at2, Euler.at3, Euler.at4, h2] <;> ring
  have hF : ∀ i, Euler.flux P ⟨1, 0, 0⟩ g i = P 1 * Euler.toConserved P g i + (![0, P 4, 0, 0, P 4 * P 1] : Euler.Vec) i := by
    refine Euler.forall5 ?_ ?_ ?_ ?_ ?_ <;>
      simp only [Euler.flux, Euler.fluxWith, Euler.velocityAlong, UnitVec.project, Euler.at0, Euler.at1, Euler.at2, Euler.at3, Euler.at4] <;> ring
  have hpush : ∀ i, (![0, P 4 * (dt * (R - r) ^ 3 / (3 * (R + r))), 0, 0, -(dt * (R ^ 2 - r ^ 2) * P 4 * P 1)] : Euler.Vec) i =
      (![0, P 4 * (dt * (R ^ 2 - r ^ 2) + dt * (R - r) ^ 3 / (3 * (R + r))), 0, 0, 0] : Euler.Vec) i -
        dt * (R ^ 2 - r ^ 2) * (![0, P 4, 0, 0, P 4 * P 1] : Euler.Vec) i := by
    refine Euler.forall5 ?_ ?_ ?_ ?_ ?_ <;> simp only [Euler.at0, Euler.at1, Euler.at2, Euler.at3, Euler.at4] <;> ring
  refine Eq.mp (congrArg Euler.Admissible (funext fun i => ?_)) (Euler.admissible_add (Euler.admissible_add a1 a2) a3)
  rw [hpush, ← hS]
  rw [hF]
  ring

/-! ### The relativistic cell -/

end Verif.Sedov

namespace Verif.Srhd

open Geometry

/-- Radial gas that works with a rate `b` against its pressure and is pushed by a part `e` of it. -/
theorem admissible_push {P : Vec} (h : Physical P) (h2 : P 2 = 0) (h3 : P 3 = 0) {g : ℝ} (hg : 1 < g) (hg2 : g ≤ 7 / 5)
    {a b e m : ℝ} (hm : 0 < m) (ha : 6 * m ≤ a) (hb0 : 0 ≤ b) (hb : b ≤ 3 * m) (he0 : 0 ≤ e) (he : e ≤ m) :
    Admissible (fun i => a * toConserved P g i + (![0, P 4 * e, 0, 0, -(b * P 4 * betaAlong P ⟨1, 0, 0⟩)] : Vec) i) := by
  obtain ⟨c0, c1, c2, c3, c4⟩ := conserved_eq P h g
  have hW := lorentz_pos P
  have hW2 := lorentz_sq P
  have hG := gammaBeta_nonneg P
  have hv := beta_causal P ⟨1, 0, 0⟩ (by unfold UnitLength; norm_num)
  have hv1 : betaAlong P ⟨1, 0, 0⟩ * lorentzFactor P = P 1 := by
    unfold betaAlong UnitVec.project
    rw [div_mul_cancel₀ _ hW.ne']
    ring
  have hvW : lorentzFactor P ^ 2 * (1 - betaAlong P ⟨1, 0, 0⟩ ^ 2) = 1 := by
    have : (betaAlong P ⟨1, 0, 0⟩ * lorentzFactor P) ^ 2 = P 1 ^ 2 := by rw [hv1]
    have hg' : gammaBetaSquared P = P 1 ^ 2 := by unfold gammaBetaSquared; rw [h2, h3]; ring
    rw [hg'] at hW2
    linarith
  obtain ⟨h0, h4⟩ := h
  have hk : 7 / 2 ≤ 1 + 1 / (g - 1) := by
    have : 5 / 2 ≤ 1 / (g - 1) := by rw [le_div_iff₀ (by linarith)]; linarith
    linarith
  have hH : enthalpyDensity P g = P 0 + P 4 * (1 + 1 / (g - 1)) := rfl
  rw [← hv1] at c1
  rw [h2, mul_zero] at c2
  rw [h3, mul_zero] at c3
  generalize 1 + 1 / (g - 1) = k at hk hH
  generalize betaAlong P ⟨1, 0, 0⟩ = v at hv hv1 hvW c1 ⊢
  generalize lorentzFactor P = W at *
  generalize enthalpyDensity P g = H at *
  generalize P 4 = p at *
  generalize P 0 = d at *
  have hW1 : 1 ≤ W ^ 2 := by rw [hW2]; linarith
  have ha0 : 0 < a := by linarith
  obtain ⟨v1, v2⟩ := abs_lt.1 hv
  have hkp : 7 / 2 * p ≤ H - d := by rw [hH]; linarith only [mul_le_mul_of_nonneg_left hk h4.le]
  have hQ : 3 / 2 * (H * p) < H ^ 2 - d ^ 2 - 2 * (H * p) := by
    have e1 : 7 / 2 * p * (H + d) ≤ (H - d) * (H + d) := mul_le_mul_of_nonneg_right hkp (by linarith)
    linarith only [mul_pos h4 h0, e1]
  have hHW : H ≤ H * W ^ 2 := le_mul_of_one_le_right (by linarith) hW1
  have hE : 0 < H * W ^ 2 - p := by linarith
  simp only [Admissible, at0, at1, at2, at3, at4]
  rw [c1, c2, c3]
  have hsum : a * toConserved P g 4 + -(b * p * v) + (a * toConserved P g 0 + 0) = a * (H * W ^ 2 - p) - b * p * v := by
    rw [← c4]; ring
  rw [hsum, c0]
  have hbv : b * p * v ≤ 3 * m * p := by
    have : b * p * v ≤ b * p * 1 := mul_le_mul_of_nonneg_left v2.le (by positivity)
    have : b * p ≤ 3 * m * p := mul_le_mul_of_nonneg_right hb h4.le
    linarith
  refine ⟨by rw [add_zero]; positivity, ?_, ?_⟩
  · have : 6 * m * (H * W ^ 2 - p) ≤ a * (H * W ^ 2 - p) := mul_le_mul_of_nonneg_right ha hE.le
    have h6 : 6 * m * p ≤ 6 * m * (H * W ^ 2 - p) := mul_le_mul_of_nonneg_left (by linarith only [hHW, hkp, h4, h0]) (by linarith only [hm])
    linarith only [this, h6, hbv, mul_pos hm h4]
  · have e1 : (a * (H * W ^ 2 - p) - b * p * v) ^ 2 - ((a * (d * W) + 0) ^ 2 +
        ((a * (W * H * (v * W)) + p * e) ^ 2 + (a * 0 + 0) ^ 2 + (a * 0 + 0) ^ 2)) =
        a ^ 2 * (W ^ 2 * (H ^ 2 - d ^ 2 - 2 * (H * p))) + a ^ 2 * p ^ 2 - 2 * a * (b * p * v) * (H * W ^ 2 - p) + (b * p * v) ^ 2
          - 2 * a * (W ^ 2 * H * v) * (p * e) - p ^ 2 * e ^ 2 := by
      linear_combination a ^ 2 * H ^ 2 * W ^ 2 * hvW
    have hpe : p ^ 2 * e ^ 2 ≤ a ^ 2 * p ^ 2 := by
      have : e ^ 2 ≤ a ^ 2 := pow_le_pow_left₀ he0 (by linarith) 2
      have := mul_le_mul_of_nonneg_left this (sq_nonneg p)
      linarith only [this]
    have hQ2 : a ^ 2 * (W ^ 2 * (3 / 2 * (H * p))) < a ^ 2 * (W ^ 2 * (H ^ 2 - d ^ 2 - 2 * (H * p))) :=
      mul_lt_mul_of_pos_left (mul_lt_mul_of_pos_left hQ (by positivity)) (by positivity)
    have hHp : 0 < H * p := mul_pos (by linarith) h4
    have rest : 2 * a * (b * p * v) * (H * W ^ 2 - p) + 2 * a * (W ^ 2 * H * v) * (p * e) ≤ a ^ 2 * (W ^ 2 * (3 / 2 * (H * p))) := by
      rcases le_total v 0 with hs | hs
      · have x1 : 2 * a * (b * p * v) * (H * W ^ 2 - p) ≤ 0 :=
          mul_nonpos_of_nonpos_of_nonneg (mul_nonpos_of_nonneg_of_nonpos (by positivity) (mul_nonpos_of_nonneg_of_nonpos (by positivity) hs)) hE.le
        have x2 : 2 * a * (W ^ 2 * H * v) * (p * e) ≤ 0 := by
          have hH0 : 0 ≤ H := by linarith
          exact mul_nonpos_of_nonpos_of_nonneg (mul_nonpos_of_nonneg_of_nonpos (by positivity) (mul_nonpos_of_nonneg_of_nonpos (by positivity) hs))
            (by positivity)
        have x3 : 0 ≤ a ^ 2 * (W ^ 2 * (3 / 2 * (H * p))) := by positivity
        linarith only [x1, x2, x3]
      · have x1 : 2 * a * (b * p * v) * (H * W ^ 2 - p) ≤ 2 * a * (b * p * v) * (H * W ^ 2) :=
          mul_le_mul_of_nonneg_left (by linarith) (by positivity)
        have x2 : (b + e) * v ≤ 4 * m := by
          have : (b + e) * v ≤ (b + e) * 1 := mul_le_mul_of_nonneg_left v2.le (by linarith)
          linarith
        have x3 : 2 * a * (W ^ 2 * (H * p)) * ((b + e) * v) ≤ 2 * a * (W ^ 2 * (H * p)) * (4 * m) :=
          mul_le_mul_of_nonneg_left x2 (by positivity)
        have x4 : a * (W ^ 2 * (H * p)) * (6 * m) ≤ a * (W ^ 2 * (H * p)) * a := mul_le_mul_of_nonneg_left ha (by positivity)
        have x5 : 0 ≤ a * (W ^ 2 * (H * p)) * m := by positivity
        linarith only [x1, x3, x4, x5]
    have := sq_nonneg (b * p * v)
    linarith only [this, e1, hpe, hQ2, rest]

end Verif.Srhd

namespace Verif.Sedov

open Geometry Verif.Nd

/-- A cell of the relativistic program. -/
theorem relativistic_cell {Pl P Pr : Srhd.Vec} (hl : Srhd.Physical Pl) (h : Srhd.Physical P) (hr : Srhd.Physical Pr) (h2 : P 2 = 0)
    (h3 : P 3 = 0) {g : ℝ} (hg : 1 < g) (hg2 : g ≤ 7 / 5) {r R dt k : ℝ} (hr0 : 0 < r) (hR : r < R) (hdt : 0 < dt) (hk : dt ≤ k * (R - r))
    (hfine : 6 * k * (2 * R ^ 2 - r ^ 2) ≤ R ^ 2 + R * r + r ^ 2) :
    Srhd.Admissible (fun i => (R ^ 3 - r ^ 3) / 3 * Srhd.toConserved P g i + dt * (Srhd.hlle Pl P ⟨1, 0, 0⟩ g i * r ^ 2
      - Srhd.hlle P Pr ⟨1, 0, 0⟩ g i * R ^ 2 + Srhd.sphericalSourceRadial P ((r + R) / 2) g i * ((R ^ 3 - r ^ 3) / 3))) := by
  obtain ⟨n1, n2, n3, n4, n5⟩ := shell_numbers hr0 hR hdt hk hfine
  have hx : Srhd.UnitLength (⟨1, 0, 0⟩ : UnitVec ℝ) := by unfold Srhd.UnitLength; norm_num
  have hg3 : g ≤ 2 := by linarith
  have a1 := Srhd.admissible_right h hr hg hg3 ⟨1, 0, 0⟩ hx (c := dt * R ^ 2) (mul_pos hdt (pow_pos (hr0.trans hR) 2)) le_rfl
  have a2 := Srhd.admissible_left hl h hg hg3 ⟨1, 0, 0⟩ hx (c := dt * r ^ 2) (by positivity) le_rfl
  have hv := Srhd.beta_causal P ⟨1, 0, 0⟩ hx
  have hq : 0 < R ^ 2 - r ^ 2 := by nlinarith
  have hal : (R ^ 3 - r ^ 3) / 3 - 2 * dt * R ^ 2 ≤
      (R ^ 3 - r ^ 3) / 3 - dt * R ^ 2 - dt * r ^ 2 - dt * (R ^ 2 - r ^ 2) * Srhd.betaAlong P ⟨1, 0, 0⟩ := by
    have : dt * (R ^ 2 - r ^ 2) * Srhd.betaAlong P ⟨1, 0, 0⟩ ≤ dt * (R ^ 2 - r ^ 2) * 1 :=
      mul_le_mul_of_nonneg_left ((le_abs_self _).trans hv.le) (by positivity)
    linarith
  have a3 := Srhd.admissible_push h h2 h3 hg hg2 n1 (n2.trans hal) (b := dt * (R ^ 2 - r ^ 2)) (by positivity) (by linarith) n3 n4
  have hS : ∀ i, Srhd.sphericalSourceRadial P ((r + R) / 2) g i * ((R ^ 3 - r ^ 3) / 3) * dt =
      (![0, P 4 * (dt * (R ^ 2 - r ^ 2) + dt * (R - r) ^ 3 / (3 * (R + r))), 0, 0, 0] : Srhd.Vec) i := by
    rw [← n5]
    refine Srhd.forall5 ?_ ?_ ?_ ?_ ?_ <;> simp only [Srhd.sphericalSourceRadial, Srhd.at0, Srhd.at1, Srhd.at2, Srhd.at3, Srhd.at4, h2] <;> ring
  have hF : ∀ i, Srhd.flux P ⟨1, 0, 0⟩ g i = Srhd.betaAlong P ⟨1, 0, 0⟩ * Srhd.toConserved P g i +
      (![0, P 4, 0, 0, P 4 * Srhd.betaAlong P ⟨1, 0, 0⟩] : Srhd.Vec) i := by
    refine Srhd.forall5 ?_ ?_ ?_ ?_ ?_ <;>
      simp only [Srhd.flux, Srhd.fluxWith, Srhd.at0, Srhd.at1, Srhd.at2, Srhd.at3, Srhd.at4] <;> ring
  have hpush : ∀ i, (![0, P 4 * (dt * (R - r) ^ 3 / (3 * (R + r))), 0, 0, -(dt * (R ^ 2 - r ^ 2) * P 4 * Srhd.betaAlong P ⟨1, 0, 0⟩)] :
      Srhd.Vec) i = (![0, P 4 * (dt * (R ^ 2 - r ^ 2) + dt * (R - r) ^ 3 / (3 * (R + r))), 0, 0, 0] : Srhd.Vec) i -
        dt * (R ^ 2 - r ^ 2) * (![0, P 4, 0, 0, P 4 * Srhd.betaAlong P ⟨1, 0, 0⟩] : Srhd.Vec) i := by
    refine Srhd.forall5 ?_ ?_ ?_ ?_ ?_ <;> simp only [Srhd.at0, Srhd.at1, Srhd.at2, Srhd.at3, Srhd.at4] <;> ring
  refine Eq.mp (congrArg Srhd.Admissible (funext fun i => ?_)) (Srhd.admissible_add (Srhd.admissible_add a1 a2) a3)
  rw [hpush, ← hS]
  rw [hF]
  ring

/-! ### Steps -/

/-- The gas on the inner side of a cell: the mirror image at the innermost face. -/
def inner (q : Nat → Fin 5 → ℝ) (k : Nat) : Fin 5 → ℝ := if k = 0 then Function.update (q 0) 1 (-q 0 1) else q (k - 1)

/-- The gas on the outer side of a cell: a copy at the outermost face. -/
def outer (q : Nat → Fin 5 → ℝ) (n k : Nat) : Fin 5 → ℝ := if k + 1 = n then q k else q (k + 1)

theorem mirror_at (P : Fin 5 → ℝ) : (Function.update P 1 (-P 1)) 0 = P 0 ∧ (Function.update P 1 (-P 1)) 1 = -P 1 ∧
    (Function.update P 1 (-P 1)) 2 = P 2 ∧ (Function.update P 1 (-P 1)) 3 = P 3 ∧ (Function.update P 1 (-P 1)) 4 = P 4 :=
  ⟨Function.update_of_ne (by decide) _ _, Function.update_self _ _ _, Function.update_of_ne (by decide) _ _,
    Function.update_of_ne (by decide) _ _, Function.update_of_ne (by decide) _ _⟩

theorem radial_inner {q : Nat → Fin 5 → ℝ} {n k : Nat} (h : ∀ k, k < n → RadialGas (q k)) (hk : k < n) : RadialGas (inner q k) := by
  unfold inner
  split_ifs with h0
  · obtain ⟨m0, -, m2, m3, m4⟩ := mirror_at (q 0)
    obtain ⟨a, b, c, d⟩ := h 0 (by omega)
    exact ⟨by rw [m0]; exact a, by rw [m4]; exact b, by rw [m2]; exact c, by rw [m3]; exact d⟩
  · exact h _ (by omega)

theorem radial_outer {q : Nat → Fin 5 → ℝ} {n k : Nat} (h : ∀ k, k < n → RadialGas (q k)) (hk : k < n) : RadialGas (outer q n k) := by
  unfold outer
  split_ifs with h0
  · exact h k hk
  · exact h _ (by omega)

/-- What a step makes of every cell. -/
theorem step_cells (H : Hydro 5 ℝ (Fin 5 → ℝ)) (flux : (Fin 5 → ℝ) → (Fin 5 → ℝ) → Fin 5 → ℝ) (source : (Fin 5 → ℝ) → ℝ → Fin 5 → ℝ)
    (hflux : ∀ l r, 0 < l 0 → 0 < l 4 → 0 < r 0 → 0 < r 4 → H.riemann l r = .ok (flux l r))
    (hsource : ∀ P r, 0 < r → H.source P r = .ok (source P r)) (hmirror : ∀ P, H.mirror P = Function.update P 1 (-P 1))
    (cfl : ℝ) (st : State 5 ℝ) (n : Nat) (h1 : 1 ≤ n) (hn : n < 2 ^ 31) (r : Nat → ℝ) (u q : Nat → Fin 5 → ℝ)
    (hr : Line st.vertices (n + 1) r) (hu : Line st.conserved n u) (h0 : 0 < r 0) (hmono : ∀ k, k < n → r k < r (k + 1))
    (hq : ∀ k, k < n → H.recover (fun a => u k a / shell r k) = .ok (q k)) (hphys : ∀ k, k < n → RadialGas (q k)) :
    ∃ st', nextSolution H cfl st = .ok st' ∧ st'.vertices = st.vertices ∧ st'.time = st.time + cfl * (r 1 - r 0) ∧
      Line st'.conserved n (fun k a => u k a + cfl * (r 1 - r 0) * (flux (inner q k) (q k) a * r k ^ 2
        - flux (q k) (outer q n k) a * r (k + 1) ^ 2 + source (q k) ((r k + r (k + 1)) / 2) a * shell r k)) := by
  have hpos := radius_nonneg h0.le hmono
  obtain ⟨st', u', e, hv, ht, hu', hc, -⟩ := spherical_balance H cfl st n h1 hn r u hr hu (by norm_num)
    (fun k hk => by
      have := shell_pos (hpos k (by omega)) (hmono k hk)
      intro hh
      rw [hh] at this
      norm_num at this) q
    (fun k => if k = n then flux (q (n - 1)) (q (n - 1)) else flux (inner q k) (q k))
    (fun k => source (q k) ((r k + r (k + 1)) / 2)) hq
    (by
      obtain ⟨a, b, -⟩ := hphys 0 (by omega)
      obtain ⟨m0, -, -, -, m4⟩ := mirror_at (q 0)
      rw [if_neg (by omega), hmirror, inner, if_pos rfl]
      exact hflux _ _ (by rw [m0]; exact a) (by rw [m4]; exact b) a b)
    (fun k hk0 hk => by
      rw [if_neg (by omega), inner, if_neg (by omega)]
      obtain ⟨a, b, -⟩ := hphys (k - 1) (by omega)
      obtain ⟨a', b', -⟩ := hphys k hk
      exact hflux _ _ a b a' b')
    (by
      rw [if_pos rfl]
      obtain ⟨a, b, -⟩ := hphys (n - 1) (by omega)
      exact hflux _ _ a b a b)
    (fun k hk => by
      refine hsource _ _ ?_
      have := hpos k (by omega)
      have := hmono k hk
      linarith)
  refine ⟨st', e, hv, ht, hu'.congr rfl fun k hk => ?_⟩
  funext a
  rw [hc, if_neg (by omega)]
  have hout : (if k + 1 = n then flux (q (n - 1)) (q (n - 1)) else flux (inner q (k + 1)) (q (k + 1))) = flux (q k) (outer q n k) := by
    unfold outer inner
    by_cases h : k + 1 = n
    · rw [if_pos h, if_pos h, ← h, Nat.add_sub_cancel]
    · rw [if_neg h, if_neg h, if_neg (by omega), Nat.add_sub_cancel]
  rw [hout]
  rfl

/-- No flux of transverse momentum between gas on the same radius. -/
theorem newtonian_transverse {l r : Euler.Vec} (hl : l 2 = 0 ∧ l 3 = 0) (hr : r 2 = 0 ∧ r 3 = 0) (g : ℝ) :
    Euler.hlle l r ⟨1, 0, 0⟩ g 2 = 0 ∧ Euler.hlle l r ⟨1, 0, 0⟩ g 3 = 0 := by
  constructor <;>
    simp only [Euler.hlle, Euler.fluxWith, Euler.toConserved, Euler.at2, Euler.at3, hl.1, hl.2, hr.1, hr.2] <;> simp

theorem relativistic_transverse {l r : Srhd.Vec} (hl : l 2 = 0 ∧ l 3 = 0) (hr : r 2 = 0 ∧ r 3 = 0) (g : ℝ) :
    Srhd.hlle l r ⟨1, 0, 0⟩ g 2 = 0 ∧ Srhd.hlle l r ⟨1, 0, 0⟩ g 3 = 0 := by
  constructor <;>
    simp only [Srhd.hlle, Srhd.fluxWith, Srhd.toConserved, Srhd.at2, Srhd.at3, hl.1, hl.2, hr.1, hr.2] <;> simp

/-- **C118**: a step of the Newtonian program, from radial gas in which no sound wave is as fast as one unit of length per unit of
time, succeeds and leaves radial gas with positive density and pressure in every zone. -/
theorem newtonian_physical (g : ℝ) (hg : 1 < g) (hg2 : g ≤ 2) (cfl : ℝ) (hcfl : 0 < cfl) (st : State 5 ℝ) (n : Nat) (h1 : 1 ≤ n)
    (hn : n < 2 ^ 31) (r : Nat → ℝ) (hr : FineGrid cfl n r) (P : Nat → Fin 5 → ℝ) (h : Holds (fun P => Euler.toConserved P g) st n r P)
    (hs : ∀ k, k < n → |P k 1| + Real.sqrt (g * P k 4 / P k 0) < 1) :
    ∃ st' P', nextSolution (newtonian g) cfl st = .ok st' ∧ Holds (fun P => Euler.toConserved P g) st' n r P' := by
  obtain ⟨h0, hgrid⟩ := hr
  obtain ⟨hv, hu, hphys⟩ := h
  have hmono := fun k hk => (hgrid k hk).1
  have hpos : ∀ k, k < n → 0 < r k := by
    intro k hk
    rcases Nat.eq_zero_or_pos k with rfl | hk0
    · exact h0
    · have := hmono (k - 1) (by omega)
      rw [Nat.sub_add_cancel hk0] at this
      exact lt_of_le_of_lt (radius_nonneg h0.le hmono (k - 1) (by omega)) this
  have hV : ∀ k, k < n → 0 < shell r k := fun k hk => shell_pos (hpos k hk).le (hmono k hk)
  have hP : ∀ k, k < n → Euler.Physical (P k) := fun k hk => ⟨(hphys k hk).1, (hphys k hk).2.1⟩
  obtain ⟨st', e, hv', -, hu'⟩ := step_cells (newtonian g) (fun l r => Euler.hlle l r ⟨1, 0, 0⟩ g) Euler.sphericalSourceRadial
    (fun l r a b c d => if_pos ⟨a, b, c, d⟩) (fun P r hr => if_neg hr.ne') (fun _ => rfl) cfl st n h1 hn r _ P hv hu h0 hmono
    (fun k hk => by
      have e1 : (fun a => shell r k * Euler.toConserved (P k) g a / shell r k) = Euler.toConserved (P k) g :=
        funext fun a => mul_div_cancel_left₀ _ (hV k hk).ne'
      rw [e1]
      show (if Euler.toConserved (P k) g 0 = 0 then _ else _) = _
      have : Euler.toConserved (P k) g 0 = P k 0 := rfl
      rw [this, if_neg (hP k hk).1.ne', Euler.recover_toConserved (P k) (hP k hk) g hg])
    hphys
  have hin : ∀ k, k < n → |inner P k 1| + Real.sqrt (Euler.soundSpeedSquared (inner P k) g) < 1 := by
    intro k hk
    unfold inner
    split_ifs with hk0
    · obtain ⟨m0, m1, -, -, m4⟩ := mirror_at (P 0)
      have := hs 0 (by omega)
      rw [Euler.soundSpeedSquared, m0, m1, m4, abs_neg]
      exact this
    · exact hs _ (by omega)
  have hout : ∀ k, k < n → |outer P n k 1| + Real.sqrt (Euler.soundSpeedSquared (outer P n k) g) < 1 := by
    intro k hk
    unfold outer
    split_ifs with hk0
    · exact hs k hk
    · exact hs _ (by omega)
  have hr01 : 0 < r 1 - r 0 := by linarith [hmono 0 (by omega)]
  -- every cell
  have hcell : ∀ k, ∃ Q : Fin 5 → ℝ, k < n → RadialGas Q ∧ ∀ a, shell r k * Euler.toConserved (P k) g a + cfl * (r 1 - r 0) *
      (Euler.hlle (inner P k) (P k) ⟨1, 0, 0⟩ g a * r k ^ 2 - Euler.hlle (P k) (outer P n k) ⟨1, 0, 0⟩ g a * r (k + 1) ^ 2
        + Euler.sphericalSourceRadial (P k) ((r k + r (k + 1)) / 2) a * shell r k) = shell r k * Euler.toConserved Q g a := by
    intro k
    by_cases hk : k < n
    swap
    · exact ⟨0, fun h => absurd h hk⟩
    obtain ⟨i0, i4, i2, i3⟩ := radial_inner hphys hk
    obtain ⟨o0, o4, o2, o3⟩ := radial_outer hphys hk
    obtain ⟨p0, p4, p2, p3⟩ := hphys k hk
    obtain ⟨g1, g2, g3⟩ := hgrid k hk
    have hA := newtonian_cell (Pl := inner P k) (Pr := outer P n k) ⟨i0, i4⟩ ⟨p0, p4⟩ ⟨o0, o4⟩ p2 p3 hg hg2 (hin k hk) (hs k hk)
      (hout k hk) (hpos k hk) g1 (mul_pos hcfl hr01) (mul_le_mul_of_nonneg_left g2 hcfl.le) g3
    have hA' := Euler.admissible_smul hA (s := 1 / shell r k) (one_div_pos.2 (hV k hk))
    obtain ⟨c0, c4⟩ := (Euler.admissible_iff _ g hg).1 hA'
    refine ⟨_, fun _ => ⟨⟨c0, c4, ?_, ?_⟩, fun a => ?_⟩⟩
    · have t1 := (newtonian_transverse ⟨i2, i3⟩ ⟨p2, p3⟩ g).1
      have t2 := (newtonian_transverse ⟨p2, p3⟩ ⟨o2, o3⟩ g).1
      simp only [Euler.recover, Euler.at2]
      rw [t1, t2]
      simp [Euler.toConserved, Euler.sphericalSourceRadial, p2]
    · have t1 := (newtonian_transverse ⟨i2, i3⟩ ⟨p2, p3⟩ g).2
      have t2 := (newtonian_transverse ⟨p2, p3⟩ ⟨o2, o3⟩ g).2
      simp only [Euler.recover, Euler.at3]
      rw [t1, t2]
      simp [Euler.toConserved, Euler.sphericalSourceRadial, p3]
    · rw [Euler.toConserved_recover _ hA'.1 g hg 0 hA'.2.le, ← mul_assoc, mul_one_div, div_self (hV k hk).ne', one_mul]
      rfl
  choose P' hP' using hcell
  refine ⟨st', P', e, by rw [hv']; exact hv, hu'.congr rfl fun k hk => funext fun a => (hP' k hk).2 a, fun k hk => (hP' k hk).1⟩

/-- **C118**: the Newtonian program stays with gas for as long as sound is slow: after any number of steps the state is one of radial gas with
positive density and pressure, unless there was a sound wave as fast as one unit of length per unit of time in some zone before. -/
theorem newtonian_run (g : ℝ) (hg : 1 < g) (hg2 : g ≤ 2) (cfl : ℝ) (hcfl : 0 < cfl) (st : State 5 ℝ) (n : Nat) (h1 : 1 ≤ n)
    (hn : n < 2 ^ 31) (r : Nat → ℝ) (hr : FineGrid cfl n r) (P : Nat → Fin 5 → ℝ) (h : Holds (fun P => Euler.toConserved P g) st n r P)
    (N : Nat) :
    (∃ st' P', afterSteps (newtonian g) cfl N st = .ok st' ∧ Holds (fun P => Euler.toConserved P g) st' n r P') ∨
    ∃ j st' P', j < N ∧ afterSteps (newtonian g) cfl j st = .ok st' ∧ Holds (fun P => Euler.toConserved P g) st' n r P' ∧
      ∃ k, k < n ∧ 1 ≤ |P' k 1| + Real.sqrt (g * P' k 4 / P' k 0) := by
  induction N with
  | zero => exact Or.inl ⟨st, P, rfl, h⟩
  | succ N ih =>
    rcases ih with ⟨st', P', e, h'⟩ | ⟨j, st', P', hj, e, h', hk⟩
    · by_cases hs : ∀ k, k < n → |P' k 1| + Real.sqrt (g * P' k 4 / P' k 0) < 1
      · obtain ⟨st2, P2, e2, h2⟩ := newtonian_physical g hg hg2 cfl hcfl st' n h1 hn r hr P' h' hs
        refine Or.inl ⟨st2, P2, ?_, h2⟩
        rw [afterSteps, e, Outcome.bind_ok, e2]
      · push Not at hs
        exact Or.inr ⟨N, st', P', by omega, e, h', hs⟩
    · exact Or.inr ⟨j, st', P', by omega, e, h', hk⟩

/-- Recovered gas moves along the radius if its momentum does. -/
theorem recover_radial {U P : Srhd.Vec} {g T : ℝ} (h : Srhd.recover U g T = .ok P) (h2 : U 2 = 0) (h3 : U 3 = 0) : RadialGas P := by
  obtain ⟨p0, p4⟩ := recover_pos h
  unfold Srhd.recover at h
  split at h
  · unfold Srhd.finish at h
    dsimp only at h
    split_ifs at h
    obtain rfl := Outcome.ok.inj h
    refine ⟨p0, p4, ?_, ?_⟩
    · rw [Srhd.at2, h2, mul_zero, zero_div]
    · rw [Srhd.at3, h3, mul_zero, zero_div]
  all_goals exact absurd h (by simp)

/-- **C118**: a step of the relativistic program, from zones without transverse momentum in which gas can be recovered, succeeds, and changes
the conserved quantities of every zone by as much as it takes to get from the recovered gas to another radial gas with positive density and pressure. -/
theorem relativistic_physical (g : ℝ) (hg : 1 < g) (hg2 : g ≤ 7 / 5) (cfl : ℝ) (hcfl : 0 < cfl) (st : State 5 ℝ) (n : Nat) (h1 : 1 ≤ n)
    (hn : n < 2 ^ 31) (r : Nat → ℝ) (hr : FineGrid cfl n r) (u q : Nat → Fin 5 → ℝ) (hv : Line st.vertices (n + 1) r)
    (hu : Line st.conserved n u) (hu2 : ∀ k, k < n → u k 2 = 0 ∧ u k 3 = 0)
    (hq : ∀ k, k < n → Srhd.recover (fun a => u k a / shell r k) g 0 = .ok (q k)) :
    ∃ (st' : State 5 ℝ) (X : Nat → Fin 5 → ℝ), nextSolution (relativistic g) cfl st = .ok st' ∧ st'.vertices = st.vertices ∧ (∀ k, k < n → RadialGas (X k)) ∧
      Line st'.conserved n (fun k a => u k a + shell r k * (Srhd.toConserved (X k) g a - Srhd.toConserved (q k) g a)) := by
  obtain ⟨h0, hgrid⟩ := hr
  have hmono := fun k hk => (hgrid k hk).1
  have hpos : ∀ k, k < n → 0 < r k := by
    intro k hk
    rcases Nat.eq_zero_or_pos k with rfl | hk0
    · exact h0
    · have := hmono (k - 1) (by omega)
      rw [Nat.sub_add_cancel hk0] at this
      exact lt_of_le_of_lt (radius_nonneg h0.le hmono (k - 1) (by omega)) this
  have hV : ∀ k, k < n → 0 < shell r k := fun k hk => shell_pos (hpos k hk).le (hmono k hk)
  have hphys : ∀ k, k < n → RadialGas (q k) := fun k hk =>
    recover_radial (hq k hk) (by rw [(hu2 k hk).1, zero_div]) (by rw [(hu2 k hk).2, zero_div])
  obtain ⟨st', e, hv', -, hu'⟩ := step_cells (relativistic g) (fun l r => Srhd.hlle l r ⟨1, 0, 0⟩ g)
    (fun P r => Srhd.sphericalSourceRadial P r g)
    (fun l r a b c d => if_pos ⟨a, b, c, d⟩) (fun P r hr => if_neg hr.ne') (fun _ => rfl) cfl st n h1 hn r _ q hv hu h0 hmono hq hphys
  have hr01 : 0 < r 1 - r 0 := by linarith [hmono 0 (by omega)]
  -- every cell
  have hcell : ∀ k, ∃ Q : Fin 5 → ℝ, k < n → RadialGas Q ∧ ∀ a, shell r k * Srhd.toConserved (q k) g a + cfl * (r 1 - r 0) *
      (Srhd.hlle (inner q k) (q k) ⟨1, 0, 0⟩ g a * r k ^ 2 - Srhd.hlle (q k) (outer q n k) ⟨1, 0, 0⟩ g a * r (k + 1) ^ 2
        + Srhd.sphericalSourceRadial (q k) ((r k + r (k + 1)) / 2) g a * shell r k) = shell r k * Srhd.toConserved Q g a := by
    intro k
    by_cases hk : k < n
    swap
    · exact ⟨0, fun h => absurd h hk⟩
    obtain ⟨i0, i4, i2, i3⟩ := radial_inner hphys hk
    obtain ⟨o0, o4, o2, o3⟩ := radial_outer hphys hk
    obtain ⟨p0, p4, p2, p3⟩ := hphys k hk
    obtain ⟨g1, g2, g3⟩ := hgrid k hk
    have hA := relativistic_cell (Pl := inner q k) (Pr := outer q n k) ⟨i0, i4⟩ ⟨p0, p4⟩ ⟨o0, o4⟩ p2 p3 hg hg2 (hpos k hk) g1
      (mul_pos hcfl hr01) (mul_le_mul_of_nonneg_left g2 hcfl.le) g3
    have hA' := Srhd.admissible_smul hA (s := 1 / shell r k) (one_div_pos.2 (hV k hk))
    obtain ⟨Q, ⟨⟨c0, c4⟩, hQ⟩, -⟩ := (Srhd.conserved_iff _ g hg (by linarith)).1 hA'
    have hmom : ∀ i : Fin 5, (i = 2 ∨ i = 3) → Srhd.toConserved Q g i = 0 := by
      intro i hi
      rw [hQ]
      have t1 := relativistic_transverse ⟨i2, i3⟩ ⟨p2, p3⟩ g
      have t2 := relativistic_transverse ⟨p2, p3⟩ ⟨o2, o3⟩ g
      rcases hi with rfl | rfl
      · beta_reduce
        rw [t1.1, t2.1]
        simp [Srhd.toConserved, Srhd.sphericalSourceRadial, p2]
      · beta_reduce
        rw [t1.2, t2.2]
        simp [Srhd.toConserved, Srhd.sphericalSourceRadial, p3]
    obtain ⟨-, -, d2, d3, -⟩ := Srhd.conserved_eq Q ⟨c0, c4⟩ g
    have hWH := mul_pos (Srhd.lorentz_pos Q) (Srhd.enthalpy_pos (P := Q) ⟨c0, c4⟩ hg)
    refine ⟨Q, fun _ => ⟨⟨c0, c4, ?_, ?_⟩, fun a => ?_⟩⟩
    · exact (mul_eq_zero.1 (d2.symm.trans (hmom 2 (Or.inl rfl)))).resolve_left hWH.ne'
    · exact (mul_eq_zero.1 (d3.symm.trans (hmom 3 (Or.inr rfl)))).resolve_left hWH.ne'
    · rw [hQ, ← mul_assoc, mul_one_div, div_self (hV k hk).ne', one_mul]
      rfl
  choose X hX using hcell
  refine ⟨st', X, e, hv', fun k hk => (hX k hk).1, hu'.congr rfl fun k hk => funext fun a => ?_⟩
  have := (hX k hk).2 a
  linarith

/-- **C118**: and if the recovered gas is that of which the zones hold the conserved quantities, they do so after the step. -/
theorem relativistic_exact (g : ℝ) (hg : 1 < g) (hg2 : g ≤ 7 / 5) (cfl : ℝ) (hcfl : 0 < cfl) (st : State 5 ℝ) (n : Nat) (h1 : 1 ≤ n)
    (hn : n < 2 ^ 31) (r : Nat → ℝ) (hr : FineGrid cfl n r) (P : Nat → Fin 5 → ℝ) (h : Holds (fun P => Srhd.toConserved P g) st n r P)
    (hq : ∀ k, k < n → Srhd.recover (Srhd.toConserved (P k) g) g 0 = .ok (P k)) :
    ∃ st' P', nextSolution (relativistic g) cfl st = .ok st' ∧ Holds (fun P => Srhd.toConserved P g) st' n r P' := by
  obtain ⟨hv, hu, hphys⟩ := h
  have hV : ∀ k, k < n → shell r k ≠ 0 := fun k hk => shell_ne (fun k hk => (hr.2 k hk).1) hk
  obtain ⟨st', X, e, hv', hX, hu'⟩ := relativistic_physical g hg hg2 cfl hcfl st n h1 hn r hr _ P hv hu
    (fun k hk => by
      obtain ⟨p0, p4, p2, p3⟩ := hphys k hk
      constructor <;> simp [Srhd.toConserved, p2, p3])
    (fun k hk => by
      rw [← hq k hk]
      congr 1
      exact funext fun a => mul_div_cancel_left₀ _ (hV k hk))
  exact ⟨st', X, e, by rw [hv']; exact hv, hu'.congr rfl fun k hk => funext fun a => by ring, hX⟩

/-! ### The grid of the program -/

/-- Radii that grow by at most 8% are fine enough for the program. -/
theorem fine_geometric (n : Nat) (r : Nat → ℝ) (q : ℝ) (h0 : 0 < r 0) (hq1 : 1 < q) (hq : q ≤ 27 / 25)
    (h : ∀ k, k < n → r (k + 1) = q * r k) : FineGrid (2 / 5) n r := by
  have hpos : ∀ k, k ≤ n → r 0 ≤ r k := by
    intro k
    induction k with
    | zero => exact fun _ => le_rfl
    | succ k ih =>
      intro hk
      have := ih (by omega)
      rw [h k (by omega)]
      nlinarith
  refine ⟨h0, fun k hk => ?_⟩
  have hk0 := hpos k (by omega)
  rw [h k hk, h 0 (by omega)]
  refine ⟨by nlinarith, by nlinarith, ?_⟩
  have hqq : 19 / 5 * q ^ 2 - q - 17 / 5 ≤ 0 := by nlinarith
  nlinarith [mul_nonneg (sq_nonneg (r k)) (neg_nonneg.2 hqq)]

/-- **C118**: with thirty zones per decade or more, the program starts with radial gas on a grid that is fine enough, the first step of the
relativistic program leaves such gas, and so does every step of the Newtonian one for as long as sound is slow. -/
theorem start_physical (c : RunConfig) (m : Nat) (ho : 1 < c.outerRadius) (hnr : 0 < c.nr)
    (hm1 : (m : ℝ) ≤ Real.logb 10 c.outerRadius * c.nr) (hm2 : Real.logb 10 c.outerRadius * c.nr < m + 1) (h1 : 1 ≤ m) (hm : m + 1 < 2 ^ 31)
    (hz : 30 * (Real.logb 10 c.outerRadius + 1 / 2) ≤ m) (hd : 0 < c.explosionDensity) (hp : 0 < c.explosionPressure) :
    (∃ st r P, newSolution (fun P => Srhd.toConserved P (4 / 3)) c = .ok st ∧ FineGrid (2 / 5) m r ∧
      Holds (fun P => Srhd.toConserved P (4 / 3)) st m r P ∧
      ∃ st' P', nextSolution (relativistic (4 / 3)) (2 / 5) st = .ok st' ∧ Holds (fun P => Srhd.toConserved P (4 / 3)) st' m r P') ∧
    ∃ st r P, newSolution (fun P => Euler.toConserved P (4 / 3)) c = .ok st ∧ FineGrid (2 / 5) m r ∧
      Holds (fun P => Euler.toConserved P (4 / 3)) st m r P ∧ ∀ N,
        (∃ st' P', afterSteps (newtonian (4 / 3)) (2 / 5) N st = .ok st' ∧ Holds (fun P => Euler.toConserved P (4 / 3)) st' m r P') ∨
        ∃ j st' P', j < N ∧ afterSteps (newtonian (4 / 3)) (2 / 5) j st = .ok st' ∧ Holds (fun P => Euler.toConserved P (4 / 3)) st' m r P' ∧
          ∃ k, k < m ∧ 1 ≤ |P' k 1| + Real.sqrt (4 / 3 * P' k 4 / P' k 0) := by
  have any : ∀ toC : (Fin 5 → ℝ) → Fin 5 → ℝ, ∃ st r, newSolution toC c = .ok st ∧ FineGrid (2 / 5) m r ∧
      Holds toC st m r (fun k => c.initial (middle r k)) := by
    intro toC
    obtain ⟨st, r, e, -, hx, hr, hU⟩ := start_any toC c m ho hnr hm1 hm2 h1 hm
    have hdec : 0 < Real.logb 10 c.outerRadius := Real.logb_pos (by norm_num) ho
    have hm0 : (0 : ℝ) < m := by exact_mod_cast h1
    have hpos : ∀ k, 0 < r k := fun k => by
      rw [hr]
      positivity
    refine ⟨st, r, e, fine_geometric m r ((10 : ℝ) ^ ((Real.logb 10 c.outerRadius + 1 / 2) / m)) (hpos 0) ?_ ?_ fun k _ => ?_, hx,
      hU.congr rfl fun k _ => funext fun a => mul_comm _ _, fun k hk => ?_⟩
    · exact Real.one_lt_rpow (by norm_num) (by positivity)
    · have h2 : (10 : ℝ) ^ ((Real.logb 10 c.outerRadius + 1 / 2) / m) ≤ (10 : ℝ) ^ ((1 : ℝ) / 30) := by
        refine Real.rpow_le_rpow_of_exponent_le (by norm_num) ?_
        rw [div_le_div_iff₀ hm0 (by norm_num)]
        linarith
      refine h2.trans ?_
      rw [← pow_le_pow_iff_left₀ (by positivity) (by norm_num) (show (30 : ℕ) ≠ 0 by norm_num), ← Real.rpow_natCast, ← Real.rpow_mul (by norm_num)]
      norm_num
    · rw [hr, hr, ← Real.rpow_add (by norm_num)]
      congr 1
      push_cast
      field_simp
      ring
    · have hmid : 0 < middle r k := by
        unfold middle
        linarith [hpos k, hpos (k + 1)]
      have := Real.rpow_pos_of_pos hmid (-c.densityIndex)
      refine ⟨?_, ?_, rfl, rfl⟩
      · show (0 : ℝ) < if _ then _ else _
        split_ifs
        · exact hd
        · exact this
      · show (0 : ℝ) < if _ then _ else _
        split_ifs
        · exact hp
        · positivity
  constructor
  · obtain ⟨st, r, e, hf, hh⟩ := any fun P => Srhd.toConserved P (4 / 3)
    refine ⟨st, r, _, e, hf, hh, relativistic_exact (4 / 3) (by norm_num) (by norm_num) (2 / 5) (by norm_num) st m h1 (by omega) r hf _ hh
      fun k hk => ?_⟩
    obtain ⟨p0, p4, -⟩ := hh.2.2 k hk
    exact Srhd.recover_rest _ ⟨p0, p4⟩ rfl rfl rfl (4 / 3) (by norm_num) 0 (by rw [zero_mul]; exact p4.le)
  · obtain ⟨st, r, e, hf, hh⟩ := any fun P => Euler.toConserved P (4 / 3)
    exact ⟨st, r, _, e, hf, hh, fun N => newtonian_run (4 / 3) (by norm_num) (by norm_num) (2 / 5) (by norm_num) st m h1 (by omega) r hf _ hh N⟩


/-- A state with the given gas. -/
noncomputable def gasState (toC : (Fin 5 → ℝ) → Fin 5 → ℝ) (n : Nat) (r : Nat → ℝ) (P : Nat → Fin 5 → ℝ) : State 5 ℝ :=
  ⟨0, ⟨fun _ => n + 1, fun i => .ok (r (i 0))⟩, ⟨fun _ => n, fun i => .ok fun a => shell r (i 0) * toC (P (i 0)) a⟩⟩

theorem gasState_holds (toC : (Fin 5 → ℝ) → Fin 5 → ℝ) (n : Nat) (r : Nat → ℝ) (P : Nat → Fin 5 → ℝ) (h : ∀ k, k < n → RadialGas (P k)) :
    Holds toC (gasState toC n r P) n r P :=
  ⟨⟨rfl, fun _ _ => rfl⟩, ⟨rfl, fun _ _ => rfl⟩, h⟩

/-- **C118, violated** for coarse grids: with a zone from radius 1 to 10, thinner than the one that the program makes of
a decade if configured with one zone per decade, there is gas with slow sound from which a step takes more mass out of the zone than there is. -/
theorem coarse_violated : ∃ (st : State 5 ℝ) (r : Nat → ℝ) (P : Nat → Fin 5 → ℝ), 0 < r 0 ∧ r 0 < r 1 ∧
    Holds (fun P => Euler.toConserved P (4 / 3)) st 1 r P ∧ |P 0 1| + Real.sqrt (4 / 3 * P 0 4 / P 0 0) < 1 ∧
    ∃ st' u, nextSolution (newtonian (4 / 3)) (2 / 5) st = .ok st' ∧ Line st'.conserved 1 u ∧ u 0 0 < 0 := by
  refine ⟨gasState (fun P => Euler.toConserved P (4 / 3)) 1 (fun k => 1 + 9 * (k : ℝ)) fun _ => ![1, 19 / 20, 0, 0, 1 / 1000], _, _, by norm_num,
    by norm_num, gasState_holds _ _ _ _ fun k _ => ⟨by rw [Srhd.at0]; norm_num, by rw [Srhd.at4]; norm_num, rfl, rfl⟩, ?_, ?_⟩
  · rw [Srhd.at0, Srhd.at1, Srhd.at4, abs_of_nonneg (by norm_num)]
    have : Real.sqrt (4 / 3 * (1 / 1000) / 1) < 1 / 20 := by
      rw [Real.sqrt_lt' (by norm_num)]
      norm_num
    linarith
  · have hsh : shell (fun k : Nat => 1 + 9 * (k : ℝ)) 0 = 333 := by
      unfold shell
      norm_num
    obtain ⟨st', u', e, -, hu', V, m, v, p, E, hV, hm, hv, -, -, ht, -⟩ := newtonian_budget (4 / 3) (by norm_num) (2 / 5)
      (gasState (fun P => Euler.toConserved P (4 / 3)) 1 (fun k => 1 + 9 * (k : ℝ)) fun _ => ![1, 19 / 20, 0, 0, 1 / 1000]) 1 le_rfl (by norm_num)
      (fun k => 1 + 9 * (k : ℝ)) _ ⟨rfl, fun _ _ => rfl⟩ ⟨rfl, fun _ _ => rfl⟩ (by norm_num) (fun k _ => by push_cast; linarith)
      (fun k hk => by
        obtain rfl : k = 0 := by omega
        dsimp only
        rw [hsh]
        simp only [Euler.toConserved, Euler.velocitySquared, Euler.at0, Euler.at1, Euler.at2, Euler.at3, Euler.at4]
        norm_num)
    refine ⟨st', u', e, hu', ?_⟩
    simp only [Finset.sum_range_one] at ht
    dsimp only at hm hv
    simp only [Nat.sub_self] at hm hv
    rw [ht, hv, hm, hV]
    simp only [Nat.sub_self, hsh, Euler.toConserved, Euler.at0, Euler.at1]
    norm_num

/-! ### Examples -/

/-- Radii that grow by 8%. -/
theorem fine_example (n : Nat) : FineGrid (2 / 5) n (fun k => (27 / 25 : ℝ) ^ k) :=
  fine_geometric n _ (27 / 25) (by norm_num) (by norm_num) le_rfl fun k _ => pow_succ' _ _

/-- Seven zones of moving gas with different densities, in the Newtonian program. -/
example : ∃ st' P', nextSolution (newtonian (5 / 3)) (2 / 5)
      (gasState (fun P => Euler.toConserved P (5 / 3)) 7 (fun k => (27 / 25 : ℝ) ^ k) fun k => ![1 + k, 1 / 4, 0, 0, 1 / 10]) = .ok st' ∧
    Holds (fun P => Euler.toConserved P (5 / 3)) st' 7 (fun k => (27 / 25 : ℝ) ^ k) P' := by
  have hgas : ∀ k : Nat, RadialGas ![1 + (k : ℝ), 1 / 4, 0, 0, 1 / 10] := fun k =>
    ⟨by rw [Srhd.at0]; positivity, by rw [Srhd.at4]; norm_num, rfl, rfl⟩
  refine newtonian_physical _ (by norm_num) (by norm_num) _ (by norm_num) _ 7 (by norm_num) (by norm_num) _ (fine_example 7) _
    (gasState_holds _ _ _ _ fun k _ => hgas k) fun k _ => ?_
  rw [Srhd.at0, Srhd.at1, Srhd.at4, abs_of_nonneg (by norm_num)]
  have : Real.sqrt (5 / 3 * (1 / 10) / (1 + k)) < 3 / 4 := by
    rw [Real.sqrt_lt' (by norm_num), div_lt_iff₀ (by positivity)]
    have : (0 : ℝ) ≤ k := Nat.cast_nonneg k
    linarith
  linarith

/-- The same gas at rest, with different pressures, in the relativistic program. -/
example : ∃ st' P', nextSolution (relativistic (4 / 3)) (2 / 5)
      (gasState (fun P => Srhd.toConserved P (4 / 3)) 7 (fun k => (27 / 25 : ℝ) ^ k) fun k => ![1 + k, 0, 0, 0, 1000 * k + 1 / 1000]) = .ok st' ∧
    Holds (fun P => Srhd.toConserved P (4 / 3)) st' 7 (fun k => (27 / 25 : ℝ) ^ k) P' := by
  have hgas : ∀ k : Nat, RadialGas ![1 + (k : ℝ), 0, 0, 0, 1000 * k + 1 / 1000] := fun k =>
    ⟨by rw [Srhd.at0]; positivity, by rw [Srhd.at4]; positivity, rfl, rfl⟩
  refine relativistic_exact _ (by norm_num) (by norm_num) _ (by norm_num) _ 7 (by norm_num) (by norm_num) _ (fine_example 7) _
    (gasState_holds _ _ _ _ fun k _ => hgas k) fun k _ => ?_
  obtain ⟨p0, p4, -⟩ := hgas k
  exact Srhd.recover_rest _ ⟨p0, p4⟩ rfl rfl rfl (4 / 3) (by norm_num) 0 (by rw [zero_mul]; exact p4.le)

/-- A run of the program with its default resolution on one decade. -/
example : ∃ st r P, newSolution (fun P => Srhd.toConserved P (4 / 3)) ⟨256, 10, 1, 1000, 2⟩ = .ok st ∧ FineGrid (2 / 5) 256 r ∧
    Holds (fun P => Srhd.toConserved P (4 / 3)) st 256 r P ∧
    ∃ st' P', nextSolution (relativistic (4 / 3)) (2 / 5) st = .ok st' ∧ Holds (fun P => Srhd.toConserved P (4 / 3)) st' 256 r P' := by
  have h10 : Real.logb 10 10 = 1 := Real.logb_self_eq_one (by norm_num)
  refine (start_physical ⟨256, 10, 1, 1000, 2⟩ 256 (by norm_num) (by norm_num) ?_ ?_ (by norm_num) (by norm_num) ?_ (by norm_num) (by norm_num)).1 <;>
    dsimp only <;> rw [h10] <;> norm_num

/-- `fine_geometric`, `newtonian_run`, `relativistic_physical` for the same zones. -/
example : FineGrid (2 / 5) 7 fun k => 3 * (26 / 25 : ℝ) ^ k :=
  fine_geometric 7 _ (26 / 25) (by norm_num) (by norm_num) (by norm_num) fun k _ => by rw [pow_succ]; ring
example (N : Nat) :
    (∃ st' P', afterSteps (newtonian (5 / 3)) (2 / 5) N
        (gasState (fun P => Euler.toConserved P (5 / 3)) 7 (fun k => (27 / 25 : ℝ) ^ k) fun k => ![1 + k, 1 / 4, 0, 0, 1 / 10]) = .ok st' ∧
      Holds (fun P => Euler.toConserved P (5 / 3)) st' 7 (fun k => (27 / 25 : ℝ) ^ k) P') ∨
    ∃ j st' P', j < N ∧ afterSteps (newtonian (5 / 3)) (2 / 5) j
        (gasState (fun P => Euler.toConserved P (5 / 3)) 7 (fun k => (27 / 25 : ℝ) ^ k) fun k => ![1 + k, 1 / 4, 0, 0, 1 / 10]) = .ok st' ∧
      Holds (fun P => Euler.toConserved P (5 / 3)) st' 7 (fun k => (27 / 25 : ℝ) ^ k) P' ∧
      ∃ k, k < 7 ∧ 1 ≤ |P' k 1| + Real.sqrt (5 / 3 * P' k 4 / P' k 0) :=
  newtonian_run _ (by norm_num) (by norm_num) _ (by norm_num) _ 7 (by norm_num) (by norm_num) _ (fine_example 7) _
    (gasState_holds _ _ _ _ fun k _ => ⟨by rw [Srhd.at0]; positivity, by rw [Srhd.at4]; norm_num, rfl, rfl⟩) N

end Verif.Sedov
