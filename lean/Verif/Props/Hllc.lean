import Verif.Props.Iso2d
import Mathlib.Tactic.Push
import Mathlib.Tactic.ByContra

/-!
# The HLLC solver for gas with given temperature (C58)
-/

namespace Verif.Iso2d

open Geometry

/-- **C58**: the failure branches are not reached, whatever the speeds are. -/
theorem hllc_defined (h : Hllc) : (∃ F, h.interfaceFlux = .ok F) ∧ ∃ U, h.interfaceState = .ok U := by
  have key : ¬0 ≤ h.sl → ¬(h.sl ≤ 0 ∧ 0 ≤ h.sstar) → ¬(h.sstar ≤ 0 ∧ 0 ≤ h.sr) → h.sr ≤ 0 := by
    intro h1 h2 h3
    by_contra h4
    rcases le_total 0 h.sstar with h5 | h5
    · exact h2 ⟨(not_le.1 h1).le, h5⟩
    · exact h3 ⟨h5, (not_le.1 h4).le⟩
  constructor
  · unfold Hllc.interfaceFlux
    split_ifs with h1 h2 h3 h4
    all_goals first | exact ⟨_, rfl⟩ | exact absurd (key h1 h2 h3) h4
  · unfold Hllc.interfaceState
    split_ifs with h1 h2 h3 h4
    all_goals first | exact ⟨_, rfl⟩ | exact absurd (key h1 h2 h3) h4

/-- The estimated pressure of the star region. -/
noncomputable def pvrs (Pl Pr : Tri) (cl cr : ℝ) (n : UnitVec ℝ) : ℝ :=
  max 0 (1 / 2 * (Pl.a * cl + Pr.a * cr) - 1 / 2 * (velocityAlong Pr n - velocityAlong Pl n) * (1 / 2 * (Pl.a + Pr.a)) *
    (1 / 2 * (Real.sqrt cl + Real.sqrt cr)))

/-- The strengths of the waves. -/
noncomputable def strength (p press : ℝ) : ℝ := max 1 (Real.sqrt (p / press))

theorem one_le_strength (p press : ℝ) : 1 ≤ strength p press := le_max_left _ _

theorem strength_sq {p press : ℝ} (h : 0 < press) (hp : 0 ≤ p) : p ≤ press * strength p press ^ 2 := by
  have h1 : Real.sqrt (p / press) ≤ strength p press := le_max_right _ _
  have h2 := Real.sq_sqrt (div_nonneg hp h.le)
  have h3 : p / press ≤ strength p press ^ 2 := by
    rw [← h2]
    exact pow_le_pow_left₀ (Real.sqrt_nonneg _) h1 2
  rw [div_le_iff₀ h] at h3
  linarith

section
variable (Pl Pr : Tri) (cl cr : ℝ) (n : UnitVec ℝ)

theorem vars_sl : (hllcVariables Pl Pr cl cr n).sl =
    velocityAlong Pl n - Real.sqrt cl * strength (pvrs Pl Pr cl cr n) (Pl.a * cl) := rfl

theorem vars_sr : (hllcVariables Pl Pr cl cr n).sr =
    velocityAlong Pr n + Real.sqrt cr * strength (pvrs Pl Pr cl cr n) (Pr.a * cr) := rfl

theorem vars_sstar : (hllcVariables Pl Pr cl cr n).sstar =
    (Pr.a * cr - Pl.a * cl + velocityAlong Pl n * Pl.a * ((hllcVariables Pl Pr cl cr n).sl - velocityAlong Pl n) -
      velocityAlong Pr n * Pr.a * ((hllcVariables Pl Pr cl cr n).sr - velocityAlong Pr n)) /
    (Pl.a * ((hllcVariables Pl Pr cl cr n).sl - velocityAlong Pl n) -
      Pr.a * ((hllcVariables Pl Pr cl cr n).sr - velocityAlong Pr n)) := rfl

variable {Pl Pr cl cr n}

theorem vars_outer (hcl : 0 < cl) (hcr : 0 < cr) :
    (hllcVariables Pl Pr cl cr n).sl < velocityAlong Pl n ∧ velocityAlong Pr n < (hllcVariables Pl Pr cl cr n).sr := by
  rw [vars_sl, vars_sr]
  have h1 := Real.sqrt_pos.2 hcl
  have h2 := Real.sqrt_pos.2 hcr
  have h3 := one_le_strength (pvrs Pl Pr cl cr n) (Pl.a * cl)
  have h4 := one_le_strength (pvrs Pl Pr cl cr n) (Pr.a * cr)
  constructor <;> nlinarith

/-- The pressures on both sides of the contact are the same. -/
theorem vars_contact (hl : 0 < Pl.a) (hr : 0 < Pr.a) (hcl : 0 < cl) (hcr : 0 < cr) :
    Pl.a * cl + Pl.a * ((hllcVariables Pl Pr cl cr n).sl - velocityAlong Pl n) *
        ((hllcVariables Pl Pr cl cr n).sstar - velocityAlong Pl n) =
      Pr.a * cr + Pr.a * ((hllcVariables Pl Pr cl cr n).sr - velocityAlong Pr n) *
        ((hllcVariables Pl Pr cl cr n).sstar - velocityAlong Pr n) := by
  obtain ⟨h1, h2⟩ := vars_outer (Pl := Pl) (Pr := Pr) (n := n) hcl hcr
  have hden : Pl.a * ((hllcVariables Pl Pr cl cr n).sl - velocityAlong Pl n) -
      Pr.a * ((hllcVariables Pl Pr cl cr n).sr - velocityAlong Pr n) ≠ 0 := by
    have e1 := mul_pos hl (sub_pos.2 h1)
    have e2 := mul_pos hr (sub_pos.2 h2)
    intro e
    linarith
  have := vars_sstar Pl Pr cl cr n
  rw [eq_div_iff hden] at this
  linarith

end

/-- The flux that goes with a state behind one of the outer waves, where the gas moves with the contact at the
pressure `p`. -/
noncomputable def starFlux (h : Hllc) (U : Tri) (p : ℝ) : Tri := (U.mul h.sstar).add ⟨0, p * h.n.n1, p * h.n.n2⟩

/-- **C58**: the jump conditions hold at both outer waves, with the same pressure on both sides of the contact. -/
theorem hllc_jump (Pl Pr : Tri) (hl : 0 < Pl.a) (hr : 0 < Pr.a) (cl cr : ℝ) (hcl : 0 < cl) (hcr : 0 < cr) (n : UnitVec ℝ)
    (h : Hllc) (hh : h = hllcVariables Pl Pr cl cr n) (h1 : h.sl ≠ h.sstar) (h2 : h.sr ≠ h.sstar) :
    ∃ p, (starFlux h h.UlStar p).sub (flux Pl n cl) = (h.UlStar.sub (toConserved Pl)).mul h.sl ∧
      (starFlux h h.UrStar p).sub (flux Pr n cr) = (h.UrStar.sub (toConserved Pr)).mul h.sr := by
  have hc := vars_contact (Pl := Pl) (Pr := Pr) (n := n) hl hr hcl hcr
  rw [← hh] at hc
  have e1 : h.n = n := by rw [hh]; rfl
  have e2 : h.Pl = Pl := by rw [hh]; rfl
  have e3 : h.Pr = Pr := by rw [hh]; rfl
  have e4 : h.ul = velocityAlong Pl n := by rw [hh]; rfl
  have e5 : h.ur = velocityAlong Pr n := by rw [hh]; rfl
  have e6 : h.perpL1 = Pl.b - n.n1 * velocityAlong Pl n := by rw [hh]; rfl
  have e7 : h.perpL2 = Pl.c - n.n2 * velocityAlong Pl n := by rw [hh]; rfl
  have e8 : h.perpR1 = Pr.b - n.n1 * velocityAlong Pr n := by rw [hh]; rfl
  have e9 : h.perpR2 = Pr.c - n.n2 * velocityAlong Pr n := by rw [hh]; rfl
  have d1 : h.sl - h.sstar ≠ 0 := sub_ne_zero.2 h1
  have d2 : h.sr - h.sstar ≠ 0 := sub_ne_zero.2 h2
  clear hh h1 h2
  refine ⟨Pl.a * cl + Pl.a * (h.sl - velocityAlong Pl n) * (h.sstar - velocityAlong Pl n), ?_, ?_⟩
  · ext <;> simp only [starFlux, Hllc.UlStar, Tri.sub, Tri.mul, Tri.add, flux, toConserved, gasPressure, e1, e2, e4, e6, e7] <;>
      field_simp <;> ring
  · rw [hc]
    ext <;> simp only [starFlux, Hllc.UrStar, Tri.sub, Tri.mul, Tri.add, flux, toConserved, gasPressure, e1, e3, e5, e8, e9] <;>
      field_simp <;> ring

/-- **C58**: consistency. -/
theorem hllc_consistent (P : Tri) (h : 0 < P.a) (cs2 : ℝ) (hc : 0 < cs2) (n : UnitVec ℝ) :
    hllc P P cs2 cs2 n = .ok (flux P n cs2) := by
  obtain ⟨o1, o2⟩ := vars_outer (Pl := P) (Pr := P) (n := n) hc hc
  have hcon := vars_contact (Pl := P) (Pr := P) (n := n) h h hc hc
  have hs : (hllcVariables P P cs2 cs2 n).sstar = velocityAlong P n := by
    have : P.a * ((hllcVariables P P cs2 cs2 n).sr - (hllcVariables P P cs2 cs2 n).sl) *
        ((hllcVariables P P cs2 cs2 n).sstar - velocityAlong P n) = 0 := by linarith
    rcases mul_eq_zero.1 this with e | e
    · rcases mul_eq_zero.1 e with e | e <;> linarith
    · linarith
  have hF : (hllcVariables P P cs2 cs2 n).Fl = flux P n cs2 := by
    simp only [Hllc.Fl, hllcVariables, Real.mul_self_sqrt hc.le]
  have hF' : (hllcVariables P P cs2 cs2 n).Fr = flux P n cs2 := by
    simp only [Hllc.Fr, hllcVariables, Real.mul_self_sqrt hc.le]
  have e4 : (hllcVariables P P cs2 cs2 n).ul = velocityAlong P n := rfl
  have e5 : (hllcVariables P P cs2 cs2 n).ur = velocityAlong P n := rfl
  have e6 : (hllcVariables P P cs2 cs2 n).perpL1 = P.b - n.n1 * velocityAlong P n := rfl
  have e7 : (hllcVariables P P cs2 cs2 n).perpL2 = P.c - n.n2 * velocityAlong P n := rfl
  have e8 : (hllcVariables P P cs2 cs2 n).perpR1 = P.b - n.n1 * velocityAlong P n := rfl
  have e9 : (hllcVariables P P cs2 cs2 n).perpR2 = P.c - n.n2 * velocityAlong P n := rfl
  have hU : (hllcVariables P P cs2 cs2 n).UlStar = (hllcVariables P P cs2 cs2 n).Ul := by
    have d : (hllcVariables P P cs2 cs2 n).sl - velocityAlong P n ≠ 0 := by linarith
    have e2 : (hllcVariables P P cs2 cs2 n).Pl = P := rfl
    have e1 : (hllcVariables P P cs2 cs2 n).n = n := rfl
    ext <;> simp only [Hllc.UlStar, Hllc.Ul, toConserved, hs, e1, e2, e4, e6, e7] <;> field_simp <;> ring
  have hU' : (hllcVariables P P cs2 cs2 n).UrStar = (hllcVariables P P cs2 cs2 n).Ur := by
    have d : (hllcVariables P P cs2 cs2 n).sr - velocityAlong P n ≠ 0 := by linarith
    have e3 : (hllcVariables P P cs2 cs2 n).Pr = P := rfl
    have e1 : (hllcVariables P P cs2 cs2 n).n = n := rfl
    ext <;> simp only [Hllc.UrStar, Hllc.Ur, toConserved, hs, e1, e3, e5, e8, e9] <;> field_simp <;> ring
  have hz : ∀ F U : Tri, ∀ s : ℝ, F.add ((U.sub U).mul s) = F := fun F U s => by
    ext <;> simp [Tri.add, Tri.sub, Tri.mul]
  obtain ⟨F, hFl⟩ := (hllc_defined (hllcVariables P P cs2 cs2 n)).1
  unfold hllc Hllc.interfaceFlux at *
  rw [hU, hU', hF, hF', hz, hz] at *
  split_ifs at * <;> simp_all

/-- The inequality behind the order of the waves: `a` is the speed of sound and `a * e` that of the collision. -/
theorem order_core {rl rr a ql qr e : ℝ} (hl : 0 < rl) (hr : 0 < rr) (ha : 0 < a) (h1 : 1 ≤ ql) (h2 : 1 ≤ qr)
    (he : e ≤ 1) (hq : (rl + rr) * (1 / 2 + e / 4) ≤ rl * ql ^ 2) :
    0 < rl * a ^ 2 - rr * a ^ 2 - rr * a * qr * (a * e) + rl * a ^ 2 * ql ^ 2 + rr * a ^ 2 * qr * ql := by
  have key : 0 < rl - rr + rl * ql ^ 2 + rr * (qr * (ql - e)) := by
    have h3 : ql - e ≤ qr * (ql - e) := by nlinarith
    have h4 : rr * (ql - e) ≤ rr * (qr * (ql - e)) := mul_le_mul_of_nonneg_left h3 hr.le
    by_cases he0 : e ≤ 0
    · have h5 : rr ≤ rr * (ql - e) := by nlinarith
      nlinarith [mul_pos hl (pow_pos (lt_of_lt_of_le one_pos h1) 2)]
    · push Not at he0
      by_cases hs : rr ≤ 6 * rl
      · nlinarith [mul_nonneg hr.le (sub_nonneg.2 h1), mul_pos hl he0, mul_nonneg hr.le (sub_nonneg.2 he)]
      · push Not at hs
        have h6 : (7 / 4 : ℝ) ≤ ql := by
          by_contra h7
          push Not at h7
          have h8 : ql ^ 2 < (7 / 4) ^ 2 := by nlinarith
          nlinarith [mul_lt_mul_of_pos_left h8 hl, mul_pos hr he0, mul_pos hl he0]
        nlinarith [mul_nonneg hr.le (sub_nonneg.2 h6), mul_pos hl he0, mul_nonneg hr.le (sub_nonneg.2 he)]
  have := mul_pos (pow_pos ha 2) key
  linarith

/-- **C58, the order of the waves, as far as it holds.** With the same sound speed on both sides, and if the gas on
the left does not run into that on the right faster than with the speed of sound, the contact lies between the
outer waves.  What is missing: faster collisions and different sound speeds, see `hllc_order_violated` and
`hllc_rest_violated`. -/
theorem hllc_order_partial (Pl Pr : Tri) (hl : 0 < Pl.a) (hr : 0 < Pr.a) (cs2 : ℝ) (hc : 0 < cs2) (n : UnitVec ℝ)
    (hcol : velocityAlong Pl n - velocityAlong Pr n ≤ Real.sqrt cs2) :
    (hllcVariables Pl Pr cs2 cs2 n).sl < (hllcVariables Pl Pr cs2 cs2 n).sstar ∧
      (hllcVariables Pl Pr cs2 cs2 n).sstar < (hllcVariables Pl Pr cs2 cs2 n).sr := by
  have hcon := vars_contact (Pl := Pl) (Pr := Pr) (n := n) hl hr hc hc
  have ha := Real.sqrt_pos.2 hc
  have hsq := Real.sq_sqrt hc.le
  have q1 := one_le_strength (pvrs Pl Pr cs2 cs2 n) (Pl.a * cs2)
  have q2 := one_le_strength (pvrs Pl Pr cs2 cs2 n) (Pr.a * cs2)
  have p1 := strength_sq (mul_pos hl hc) (show 0 ≤ pvrs Pl Pr cs2 cs2 n from le_max_left _ _)
  have p2 := strength_sq (mul_pos hr hc) (show 0 ≤ pvrs Pl Pr cs2 cs2 n from le_max_left _ _)
  have pv : 1 / 2 * (Pl.a * cs2 + Pr.a * cs2) - 1 / 2 * (velocityAlong Pr n - velocityAlong Pl n) *
      (1 / 2 * (Pl.a + Pr.a)) * (1 / 2 * (Real.sqrt cs2 + Real.sqrt cs2)) ≤ pvrs Pl Pr cs2 cs2 n := le_max_right _ _
  rw [vars_sl, vars_sr] at *
  generalize strength (pvrs Pl Pr cs2 cs2 n) (Pl.a * cs2) = ql at *
  generalize strength (pvrs Pl Pr cs2 cs2 n) (Pr.a * cs2) = qr at *
  generalize pvrs Pl Pr cs2 cs2 n = pst at *
  generalize (hllcVariables Pl Pr cs2 cs2 n).sstar = ss at *
  generalize velocityAlong Pl n = ul at *
  generalize velocityAlong Pr n = ur at *
  generalize Real.sqrt cs2 = a at *
  generalize Pl.a = rl at *
  generalize Pr.a = rr at *
  subst hsq
  obtain ⟨e, he⟩ : ∃ e, ul - ur = a * e := ⟨(ul - ur) / a, by field_simp⟩
  have he1 : e ≤ 1 := by
    by_contra h
    push Not at h
    nlinarith
  have hur : ur = ul - a * e := by linarith
  subst hur
  have hpos : 0 < a ^ 2 := pow_pos ha 2
  have k1 : (rl + rr) * (1 / 2 + e / 4) ≤ rl * ql ^ 2 := by
    refine le_of_mul_le_mul_left ?_ hpos
    linarith
  have k2 : (rr + rl) * (1 / 2 + e / 4) ≤ rr * qr ^ 2 := by
    refine le_of_mul_le_mul_left ?_ hpos
    linarith
  have c1 := order_core hl hr ha q1 q2 he1 k1
  have c2 := order_core hr hl ha q2 q1 he1 k2
  have hm : 0 < rl * a * ql + rr * a * qr := by positivity
  constructor
  · refine lt_of_mul_lt_mul_left ?_ hm.le
    linarith
  · refine lt_of_mul_lt_mul_left ?_ hm.le
    linarith

/-- **C58**: ordered waves give states of positive density next to the contact. -/
theorem hllc_star_positive (Pl Pr : Tri) (hl : 0 < Pl.a) (hr : 0 < Pr.a) (cl cr : ℝ) (hcl : 0 < cl) (hcr : 0 < cr)
    (n : UnitVec ℝ) (h : Hllc) (hh : h = hllcVariables Pl Pr cl cr n) (h1 : h.sl < h.sstar) (h2 : h.sstar < h.sr) :
    0 < h.UlStar.a ∧ 0 < h.UrStar.a := by
  obtain ⟨o1, o2⟩ := vars_outer (Pl := Pl) (Pr := Pr) (n := n) hcl hcr
  have e2 : h.Pl = Pl := by rw [hh]; rfl
  have e3 : h.Pr = Pr := by rw [hh]; rfl
  have e4 : h.ul = velocityAlong Pl n := by rw [hh]; rfl
  have e5 : h.ur = velocityAlong Pr n := by rw [hh]; rfl
  rw [← hh] at o1 o2
  simp only [Hllc.UlStar, Hllc.UrStar, e2, e3, e4, e5]
  exact ⟨div_pos_of_neg_of_neg (by nlinarith) (by linarith), div_pos (by nlinarith) (by linarith)⟩

theorem pvrs_opposite (Pl Pr : Tri) (cl cr : ℝ) (n : UnitVec ℝ) : pvrs Pr Pl cr cl (opposite n) = pvrs Pl Pr cl cr n := by
  simp only [pvrs, velocityAlong_opposite]
  congr 1
  ring

theorem vars_opposite (Pl Pr : Tri) (cl cr : ℝ) (n : UnitVec ℝ) :
    (hllcVariables Pr Pl cr cl (opposite n)).sl = -(hllcVariables Pl Pr cl cr n).sr ∧
    (hllcVariables Pr Pl cr cl (opposite n)).sr = -(hllcVariables Pl Pr cl cr n).sl ∧
    (hllcVariables Pr Pl cr cl (opposite n)).sstar = -(hllcVariables Pl Pr cl cr n).sstar := by
  have h1 : (hllcVariables Pr Pl cr cl (opposite n)).sl = -(hllcVariables Pl Pr cl cr n).sr := by
    rw [vars_sl, vars_sr, pvrs_opposite, velocityAlong_opposite]; ring
  have h2 : (hllcVariables Pr Pl cr cl (opposite n)).sr = -(hllcVariables Pl Pr cl cr n).sl := by
    rw [vars_sl, vars_sr, pvrs_opposite, velocityAlong_opposite]; ring
  refine ⟨h1, h2, ?_⟩
  rw [vars_sstar, vars_sstar, h1, h2, velocityAlong_opposite, velocityAlong_opposite, ← neg_div]
  congr 1 <;> ring

/-- **C58**: seen from the other side, the flux is the opposite, if the waves are in order. -/
theorem hllc_opposite_partial (Pl Pr : Tri) (hl : 0 < Pl.a) (hr : 0 < Pr.a) (cl cr : ℝ) (hcl : 0 < cl) (hcr : 0 < cr)
    (n : UnitVec ℝ) (h1 : (hllcVariables Pl Pr cl cr n).sl < (hllcVariables Pl Pr cl cr n).sstar)
    (h2 : (hllcVariables Pl Pr cl cr n).sstar < (hllcVariables Pl Pr cl cr n).sr) (F : Tri)
    (hF : hllc Pl Pr cl cr n = .ok F) : hllc Pr Pl cr cl (opposite n) = .ok (F.mul (-1)) := by
  obtain ⟨p, j1, j2⟩ := hllc_jump Pl Pr hl hr cl cr hcl hcr n _ rfl h1.ne h2.ne'
  obtain ⟨s1, s2, s3⟩ := vars_opposite Pl Pr cl cr n
  have f1 : (hllcVariables Pl Pr cl cr n).Fl = flux Pl n cl := by
    simp only [Hllc.Fl, hllcVariables, Real.mul_self_sqrt hcl.le]
  have f2 : (hllcVariables Pl Pr cl cr n).Fr = flux Pr n cr := by
    simp only [Hllc.Fr, hllcVariables, Real.mul_self_sqrt hcr.le]
  have g1 : (hllcVariables Pr Pl cr cl (opposite n)).Fl = (flux Pr n cr).mul (-1) := by
    rw [← flux_opposite]; simp only [Hllc.Fl, hllcVariables, Real.mul_self_sqrt hcr.le]
  have g2 : (hllcVariables Pr Pl cr cl (opposite n)).Fr = (flux Pl n cl).mul (-1) := by
    rw [← flux_opposite]; simp only [Hllc.Fr, hllcVariables, Real.mul_self_sqrt hcl.le]
  have u1 : (hllcVariables Pr Pl cr cl (opposite n)).Ul = (hllcVariables Pl Pr cl cr n).Ur := rfl
  have u2 : (hllcVariables Pr Pl cr cl (opposite n)).Ur = (hllcVariables Pl Pr cl cr n).Ul := rfl
  have d1 : (hllcVariables Pl Pr cl cr n).sl - (hllcVariables Pl Pr cl cr n).sstar ≠ 0 := by linarith
  have d2 : (hllcVariables Pl Pr cl cr n).sr - (hllcVariables Pl Pr cl cr n).sstar ≠ 0 := by linarith
  have d1' : -(hllcVariables Pl Pr cl cr n).sl + (hllcVariables Pl Pr cl cr n).sstar ≠ 0 := by linarith
  have d2' : -(hllcVariables Pl Pr cl cr n).sr + (hllcVariables Pl Pr cl cr n).sstar ≠ 0 := by linarith
  have w1 : (hllcVariables Pr Pl cr cl (opposite n)).UlStar = (hllcVariables Pl Pr cl cr n).UrStar := by
    have q : (-(hllcVariables Pl Pr cl cr n).sr - -velocityAlong Pr n) /
        (-(hllcVariables Pl Pr cl cr n).sr - -(hllcVariables Pl Pr cl cr n).sstar) =
        ((hllcVariables Pl Pr cl cr n).sr - velocityAlong Pr n) /
        ((hllcVariables Pl Pr cl cr n).sr - (hllcVariables Pl Pr cl cr n).sstar) := by
      rw [← neg_div_neg_eq]; congr 1 <;> ring
    have e3 : (hllcVariables Pr Pl cr cl (opposite n)).ul = -velocityAlong Pr n := velocityAlong_opposite _ _
    have e4 : (hllcVariables Pl Pr cl cr n).ur = velocityAlong Pr n := rfl
    have e5 : (hllcVariables Pr Pl cr cl (opposite n)).perpL1 = (hllcVariables Pl Pr cl cr n).perpR1 := by
      simp only [hllcVariables, velocityAlong_opposite]; simp only [opposite]; ring
    have e6 : (hllcVariables Pr Pl cr cl (opposite n)).perpL2 = (hllcVariables Pl Pr cl cr n).perpR2 := by
      simp only [hllcVariables, velocityAlong_opposite]; simp only [opposite]; ring
    have e7 : (hllcVariables Pr Pl cr cl (opposite n)).Pl = (hllcVariables Pl Pr cl cr n).Pr := rfl
    have e8 : (hllcVariables Pr Pl cr cl (opposite n)).n = opposite (hllcVariables Pl Pr cl cr n).n := rfl
    ext <;> simp only [Hllc.UlStar, Hllc.UrStar, s1, s3, e3, e4, e5, e6, e7, e8, mul_div_assoc, q] <;>
      simp only [opposite] <;> ring
  have w2 : (hllcVariables Pr Pl cr cl (opposite n)).UrStar = (hllcVariables Pl Pr cl cr n).UlStar := by
    have q : (-(hllcVariables Pl Pr cl cr n).sl - -velocityAlong Pl n) /
        (-(hllcVariables Pl Pr cl cr n).sl - -(hllcVariables Pl Pr cl cr n).sstar) =
        ((hllcVariables Pl Pr cl cr n).sl - velocityAlong Pl n) /
        ((hllcVariables Pl Pr cl cr n).sl - (hllcVariables Pl Pr cl cr n).sstar) := by
      rw [← neg_div_neg_eq]; congr 1 <;> ring
    have e3 : (hllcVariables Pr Pl cr cl (opposite n)).ur = -velocityAlong Pl n := velocityAlong_opposite _ _
    have e4 : (hllcVariables Pl Pr cl cr n).ul = velocityAlong Pl n := rfl
    have e5 : (hllcVariables Pr Pl cr cl (opposite n)).perpR1 = (hllcVariables Pl Pr cl cr n).perpL1 := by
      simp only [hllcVariables, velocityAlong_opposite]; simp only [opposite]; ring
    have e6 : (hllcVariables Pr Pl cr cl (opposite n)).perpR2 = (hllcVariables Pl Pr cl cr n).perpL2 := by
      simp only [hllcVariables, velocityAlong_opposite]; simp only [opposite]; ring
    have e7 : (hllcVariables Pr Pl cr cl (opposite n)).Pr = (hllcVariables Pl Pr cl cr n).Pl := rfl
    have e8 : (hllcVariables Pr Pl cr cl (opposite n)).n = opposite (hllcVariables Pl Pr cl cr n).n := rfl
    ext <;> simp only [Hllc.UlStar, Hllc.UrStar, s2, s3, e3, e4, e5, e6, e7, e8, mul_div_assoc, q] <;>
      simp only [opposite] <;> ring
  unfold hllc Hllc.interfaceFlux at *
  rw [f1, f2] at hF
  rw [g1, g2, u1, u2, w1, w2, s1, s2, s3]
  change _ = (_ : Tri).mul _ at j1 j2
  have v1 : (hllcVariables Pl Pr cl cr n).Ul = toConserved Pl := rfl
  have v2 : (hllcVariables Pl Pr cl cr n).Ur = toConserved Pr := rfl
  rw [v1, v2] at hF ⊢
  simp only [starFlux, Tri.sub, Tri.mul, Tri.add, Tri.mk.injEq] at j1 j2
  obtain ⟨j1a, j1b, j1c⟩ := j1
  obtain ⟨j2a, j2b, j2c⟩ := j2
  generalize hllcVariables Pl Pr cl cr n = h at *
  generalize flux Pl n cl = Fl at *
  generalize flux Pr n cr = Fr at *
  generalize toConserved Pl = Ul at *
  generalize toConserved Pr = Ur at *
  generalize h.UlStar = Uls at *
  generalize h.UrStar = Urs at *
  generalize h.sl = sl at *
  generalize h.sr = sr at *
  generalize h.sstar = ss at *
  clear f1 f2 g1 g2 u1 u2 w1 w2 s1 s2 s3 d1 d2 d1' d2'
  rcases lt_or_ge 0 sl with a1 | a1
  · rw [if_pos a1.le] at hF
    cases hF
    rw [if_neg (by linarith), if_neg (by rintro ⟨_, _⟩; linarith), if_neg (by rintro ⟨_, _⟩; linarith), if_pos (by linarith)]
  · have hF' : F = if 0 ≤ ss then Fl.add ((Uls.sub Ul).mul sl) else if 0 ≤ sr then Fr.add ((Urs.sub Ur).mul sr) else Fr := by
      by_cases a2 : 0 ≤ sl
      · rw [if_pos a2] at hF
        cases hF
        rw [if_pos (by linarith)]
        have : sl = 0 := le_antisymm a1 a2
        ext <;> simp [Tri.add, Tri.mul, this]
      · rw [if_neg a2] at hF
        by_cases a3 : 0 ≤ ss
        · rw [if_pos ⟨a1, a3⟩] at hF
          cases hF
          rw [if_pos a3]
        · rw [if_neg (by rintro ⟨_, h⟩; exact a3 h)] at hF
          rw [if_neg a3]
          by_cases a4 : 0 ≤ sr
          · rw [if_pos ⟨by linarith, a4⟩] at hF
            cases hF
            rw [if_pos a4]
          · rw [if_neg (by rintro ⟨_, h⟩; exact a4 h), if_pos (by linarith)] at hF
            cases hF
            rw [if_neg a4]
    rw [hF']
    clear hF' hF
    by_cases b1 : 0 ≤ -sr
    · rw [if_pos b1, if_neg (show ¬0 ≤ ss by linarith)]
      split_ifs with b2
      · have : sr = 0 := by linarith
        congr 1
        ext <;> simp [Tri.add, Tri.mul, this]
      · rfl
    · rw [if_neg b1]
      by_cases b2 : 0 ≤ -ss
      · rw [if_pos ⟨by linarith, b2⟩]
        congr 1
        split_ifs with b3 b4
        · have e : ss = 0 := by linarith
          subst e
          ext <;> simp only [Tri.add, Tri.sub, Tri.mul] <;> linarith
        · ext <;> simp only [Tri.add, Tri.sub, Tri.mul] <;> ring
        · exact absurd (by linarith) b4
      · rw [if_neg (by rintro ⟨_, h⟩; exact b2 h), if_pos ⟨by linarith, by linarith⟩, if_pos (show 0 ≤ ss by linarith)]
        congr 1
        ext <;> simp only [Tri.add, Tri.sub, Tri.mul] <;> ring

/-- **C58, a violation.** Two equal streams of gas at twice the speed of sound run into each other.  Both outer waves
are on the wrong side of the contact, the speed of which is zero; and instead of none, the whole mass flux of the
left stream goes through the interface. -/
theorem hllc_order_violated :
    ∃ Pl Pr : Tri, 0 < Pl.a ∧ Pr = ⟨Pl.a, -Pl.b, Pl.c⟩ ∧
      (hllcVariables Pl Pr 1 1 ⟨1, 0, 0⟩).sstar < (hllcVariables Pl Pr 1 1 ⟨1, 0, 0⟩).sl ∧
      (hllcVariables Pl Pr 1 1 ⟨1, 0, 0⟩).sr < (hllcVariables Pl Pr 1 1 ⟨1, 0, 0⟩).sstar ∧
      hllc Pl Pr 1 1 ⟨1, 0, 0⟩ = .ok (flux Pl ⟨1, 0, 0⟩ 1) ∧ (flux Pl ⟨1, 0, 0⟩ 1).a = 2 := by
  have v1 : velocityAlong ⟨1, 2, 0⟩ ⟨1, 0, 0⟩ = 2 := by simp [velocityAlong, UnitVec.project]
  have v2 : velocityAlong ⟨1, -2, 0⟩ ⟨1, 0, 0⟩ = -2 := by simp [velocityAlong, UnitVec.project]
  have hp : pvrs ⟨1, 2, 0⟩ ⟨1, -2, 0⟩ 1 1 ⟨1, 0, 0⟩ = 3 := by
    simp only [pvrs, v1, v2, Real.sqrt_one]; norm_num
  have hs : strength 3 1 < 2 := by
    refine max_lt (by norm_num) ?_
    rw [Real.sqrt_lt' (by norm_num)]
    norm_num
  have hl : (hllcVariables ⟨1, 2, 0⟩ ⟨1, -2, 0⟩ 1 1 ⟨1, 0, 0⟩).sl = 2 - strength 3 1 := by
    rw [vars_sl, hp, v1, Real.sqrt_one]; simp
  have hr : (hllcVariables ⟨1, 2, 0⟩ ⟨1, -2, 0⟩ 1 1 ⟨1, 0, 0⟩).sr = -2 + strength 3 1 := by
    rw [vars_sr, hp, v2, Real.sqrt_one]; simp
  have hc : (hllcVariables ⟨1, 2, 0⟩ ⟨1, -2, 0⟩ 1 1 ⟨1, 0, 0⟩).sstar = 0 := by
    rw [vars_sstar, hl, hr, v1, v2]
    have : (1 * 1 - 1 * 1 + 2 * 1 * (2 - strength 3 1 - 2) - -2 * 1 * (-2 + strength 3 1 - -2) : ℝ) = 0 := by ring
    rw [this, zero_div]
  refine ⟨⟨1, 2, 0⟩, ⟨1, -2, 0⟩, one_pos, rfl, by rw [hl, hc]; linarith, by rw [hr, hc]; linarith, ?_, ?_⟩
  · unfold hllc Hllc.interfaceFlux
    rw [if_pos (by rw [hl]; linarith)]
    simp [Hllc.Fl, hllcVariables]
  · simp only [flux, v1]; norm_num

/-- **C58, another violation.** With different sound speeds the waves can be out of order even for gas at rest. -/
theorem hllc_rest_violated :
    ∃ (Pl Pr : Tri) (cl cr : ℝ), 0 < Pl.a ∧ 0 < Pr.a ∧ 0 < cl ∧ 0 < cr ∧ Pl.b = 0 ∧ Pl.c = 0 ∧ Pr.b = 0 ∧ Pr.c = 0 ∧
      (hllcVariables Pl Pr cl cr ⟨1, 0, 0⟩).sstar < (hllcVariables Pl Pr cl cr ⟨1, 0, 0⟩).sl := by
  have v : ∀ x : ℝ, velocityAlong ⟨x, 0, 0⟩ ⟨1, 0, 0⟩ = 0 := fun x => by simp [velocityAlong, UnitVec.project]
  have hp : pvrs ⟨1000000 / 97, 0, 0⟩ ⟨1, 0, 0⟩ (1 / 1000000) 1 ⟨1, 0, 0⟩ = 49 / 97 := by
    simp only [pvrs, v]; norm_num
  have hs : Real.sqrt (1 / 1000000) = 1 / 1000 := by
    rw [show (1 / 1000000 : ℝ) = (1 / 1000) ^ 2 by norm_num]
    exact Real.sqrt_sq (by norm_num)
  have h1 : strength (49 / 97) (1000000 / 97 * (1 / 1000000)) = 7 := by
    unfold strength
    rw [show (49 / 97 / (1000000 / 97 * (1 / 1000000)) : ℝ) = 7 ^ 2 by norm_num, Real.sqrt_sq (by norm_num)]
    norm_num
  have h2 : strength (49 / 97) (1 * 1) = 1 := by
    refine max_eq_left ?_
    rw [Real.sqrt_le_one]
    norm_num
  have hl : (hllcVariables ⟨1000000 / 97, 0, 0⟩ ⟨1, 0, 0⟩ (1 / 1000000) 1 ⟨1, 0, 0⟩).sl = -7 / 1000 := by
    rw [vars_sl, hp, v, h1, hs]; norm_num
  have hr : (hllcVariables ⟨1000000 / 97, 0, 0⟩ ⟨1, 0, 0⟩ (1 / 1000000) 1 ⟨1, 0, 0⟩).sr = 1 := by
    rw [vars_sr, hp, v, h2, Real.sqrt_one]; norm_num
  refine ⟨⟨1000000 / 97, 0, 0⟩, ⟨1, 0, 0⟩, 1 / 1000000, 1, by norm_num, by norm_num, by norm_num, by norm_num,
    rfl, rfl, rfl, rfl, ?_⟩
  rw [vars_sstar, hl, hr, v, v]
  norm_num

/-- Two equal streams that meet at half the speed of sound each: the waves are in order. -/
example : (hllcVariables ⟨1, 1 / 2, 3⟩ ⟨1, -1 / 2, 1⟩ 1 1 ⟨1, 0, 0⟩).sl <
    (hllcVariables ⟨1, 1 / 2, 3⟩ ⟨1, -1 / 2, 1⟩ 1 1 ⟨1, 0, 0⟩).sstar :=
  (hllc_order_partial _ _ one_pos one_pos 1 one_pos _ (by simp [velocityAlong, UnitVec.project]; norm_num)).1

example : hllc ⟨2, 3, 1⟩ ⟨2, 3, 1⟩ 4 4 ⟨1, 0, 0⟩ = .ok ⟨6, 26, 6⟩ := by
  rw [hllc_consistent _ (by norm_num) 4 (by norm_num)]
  simp only [flux, velocityAlong, UnitVec.project, gasPressure]
  norm_num

/-- The waves of these streams are in order. -/
theorem streams_ordered : (hllcVariables ⟨1, 1 / 2, 3⟩ ⟨1, -1 / 2, 1⟩ 1 1 ⟨1, 0, 0⟩).sl <
      (hllcVariables ⟨1, 1 / 2, 3⟩ ⟨1, -1 / 2, 1⟩ 1 1 ⟨1, 0, 0⟩).sstar ∧
    (hllcVariables ⟨1, 1 / 2, 3⟩ ⟨1, -1 / 2, 1⟩ 1 1 ⟨1, 0, 0⟩).sstar <
      (hllcVariables ⟨1, 1 / 2, 3⟩ ⟨1, -1 / 2, 1⟩ 1 1 ⟨1, 0, 0⟩).sr :=
  hllc_order_partial _ _ one_pos one_pos 1 one_pos _ (by simp [velocityAlong, UnitVec.project]; norm_num)

/-- `hllc_defined`, `hllc_opposite_partial`, `hllc_star_positive`, `hllc_jump` for them. -/
example : ∃ F, hllc ⟨1, 1 / 2, 3⟩ ⟨1, -1 / 2, 1⟩ 1 1 ⟨1, 0, 0⟩ = .ok F ∧
    hllc ⟨1, -1 / 2, 1⟩ ⟨1, 1 / 2, 3⟩ 1 1 (opposite ⟨1, 0, 0⟩) = .ok (F.mul (-1)) := by
  obtain ⟨F, hF⟩ := (hllc_defined (hllcVariables ⟨1, 1 / 2, 3⟩ ⟨1, -1 / 2, 1⟩ 1 1 ⟨1, 0, 0⟩)).1
  exact ⟨F, hF, hllc_opposite_partial _ _ one_pos one_pos 1 1 one_pos one_pos _ streams_ordered.1 streams_ordered.2 F hF⟩
example : 0 < (hllcVariables ⟨1, 1 / 2, 3⟩ ⟨1, -1 / 2, 1⟩ 1 1 ⟨1, 0, 0⟩).UlStar.a :=
  (hllc_star_positive _ _ one_pos one_pos 1 1 one_pos one_pos _ _ rfl streams_ordered.1 streams_ordered.2).1
example : ∃ p, (starFlux (hllcVariables ⟨1, 1 / 2, 3⟩ ⟨1, -1 / 2, 1⟩ 1 1 ⟨1, 0, 0⟩)
      (hllcVariables ⟨1, 1 / 2, 3⟩ ⟨1, -1 / 2, 1⟩ 1 1 ⟨1, 0, 0⟩).UlStar p).sub (flux ⟨1, 1 / 2, 3⟩ ⟨1, 0, 0⟩ 1) =
    ((hllcVariables ⟨1, 1 / 2, 3⟩ ⟨1, -1 / 2, 1⟩ 1 1 ⟨1, 0, 0⟩).UlStar.sub (toConserved ⟨1, 1 / 2, 3⟩)).mul
      (hllcVariables ⟨1, 1 / 2, 3⟩ ⟨1, -1 / 2, 1⟩ 1 1 ⟨1, 0, 0⟩).sl := by
  obtain ⟨p, h, _⟩ := hllc_jump ⟨1, 1 / 2, 3⟩ ⟨1, -1 / 2, 1⟩ one_pos one_pos 1 1 one_pos one_pos ⟨1, 0, 0⟩ _ rfl
    streams_ordered.1.ne streams_ordered.2.ne'
  exact ⟨p, h⟩

end Verif.Iso2d
