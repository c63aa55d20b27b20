import Verif.Model.Iso2d
import Verif.Lemmas.Hlle
import Verif.Props.Geometry
import Mathlib.Tactic.Positivity

/-!
# Gas with given temperature: variables (C57), HLLE (C55), Roe average (C82)
-/

namespace Verif.Iso2d

open Geometry

/-! ## Variables -/

/-- **C57**: mass and momentum, and back. -/
theorem recover_toConserved (P : Tri) (h : 0 < P.a) : recover (toConserved P) = .ok P := by
  refine (if_neg (show ¬P.a < 0 by linarith)).trans (congrArg Outcome.ok ?_)
  ext
  · rfl
  · simp only [toConserved]; field_simp
  · simp only [toConserved]; field_simp

example : recover (toConserved ⟨2, -1, 3⟩) = .ok ⟨2, -1, 3⟩ := recover_toConserved _ (by norm_num)

/-- **C57**: mass, radial and angular momentum, and back. -/
theorem recoverAngmom_toAngmom (P : Tri) (h : 0 < P.a) (x y : ℝ) (hr : (x, y) ≠ (0, 0)) :
    recoverAngmom (toAngmom P x y) x y = .ok P := by
  have hr2 : x * x + y * y ≠ 0 := by
    intro e
    have hx : x = 0 := by nlinarith [mul_self_nonneg x, mul_self_nonneg y]
    have hy : y = 0 := by nlinarith [mul_self_nonneg x, mul_self_nonneg y]
    exact hr (by rw [hx, hy])
  have hr3 : x ^ 2 + y ^ 2 ≠ 0 := by rw [sq, sq]; exact hr2
  refine (if_neg (show ¬P.a < 0 by linarith)).trans (congrArg Outcome.ok ?_)
  ext
  · rfl
  · simp only [toAngmom]; field_simp; ring
  · simp only [toAngmom]; field_simp; ring

/-- **C57**: every pair of densities with positive mass is that of the primitives recovered from it. -/
theorem toConserved_recover (U P : Tri) (h : 0 < U.a) (x y : ℝ) :
    (recover U = .ok P → toConserved P = U) ∧
      ((x, y) ≠ (0, 0) → recoverAngmom U x y = .ok P → toAngmom P x y = U) := by
  constructor
  · intro e
    simp only [recover] at e
    rw [if_neg (by linarith), Outcome.ok.injEq] at e
    subst e
    ext
    · rfl
    · simp only [toConserved]; field_simp
    · simp only [toConserved]; field_simp
  · intro hr e
    have hr2 : x * x + y * y ≠ 0 := by
      intro e
      have hx : x = 0 := by nlinarith [mul_self_nonneg x, mul_self_nonneg y]
      have hy : y = 0 := by nlinarith [mul_self_nonneg x, mul_self_nonneg y]
      exact hr (by rw [hx, hy])
    have hr3 : x ^ 2 + y ^ 2 ≠ 0 := by rw [sq, sq]; exact hr2
    simp only [recoverAngmom] at e
    rw [if_neg (by linarith), Outcome.ok.injEq] at e
    subst e
    ext
    · rfl
    · simp only [toAngmom]; field_simp; ring
    · simp only [toAngmom]; field_simp; ring

example (P : Tri) (h : recover ⟨2, -1, 3⟩ = .ok P) : toConserved P = ⟨2, -1, 3⟩ :=
  (toConserved_recover _ P (by norm_num) 0 0).1 h

/-- **C57**: the two ways to momentum agree, and so do the two ways to angular momentum. -/
theorem angmom_agree (P : Tri) (x y : ℝ) :
    angularMomentum (toConserved P) x y = (toAngmom P x y).c ∧
      ((x, y) ≠ (0, 0) → angmomToConserved (toAngmom P x y) x y = toConserved P) := by
  constructor
  · simp only [angularMomentum, toConserved, toAngmom]; ring
  · intro hr
    have hr2 : x * x + y * y ≠ 0 := by
      intro e
      have hx : x = 0 := by nlinarith [mul_self_nonneg x, mul_self_nonneg y]
      have hy : y = 0 := by nlinarith [mul_self_nonneg x, mul_self_nonneg y]
      exact hr (by rw [hx, hy])
    have hr3 : x ^ 2 + y ^ 2 ≠ 0 := by rw [sq, sq]; exact hr2
    ext
    · rfl
    · simp only [angmomToConserved, toAngmom, toConserved]; field_simp; ring
    · simp only [angmomToConserved, toAngmom, toConserved]; field_simp; ring

example : angmomToConserved (toAngmom ⟨2, -1, 3⟩ 3 4) 3 4 = toConserved ⟨2, -1, 3⟩ := (angmom_agree _ _ _).2 (by simp)

/-- **C57**: negative density throws. -/
theorem recover_negative (U : Tri) (h : U.a < 0) (x y : ℝ) :
    recover U = .throws .invalidArgument ∧ recoverAngmom U x y = .throws .invalidArgument :=
  ⟨if_pos h, if_pos h⟩

example : recover ⟨-1, 2, 3⟩ = .throws .invalidArgument := (recover_negative ⟨-1, 2, 3⟩ (by norm_num) 0 0).1

/-- **C57**: what the fluxes of momentum through a face at `(x, y)` do to radial and angular momentum is what the
converted fluxes do; and the source term of radial momentum is the trace of the momentum flux, that of angular
momentum vanishes as the momentum flux is symmetric: for the flux tensor `T`, the divergence of `x · T` is
`x · div T` plus the trace. -/
theorem angmom_flux (P : Tri) (n : UnitVec ℝ) (cs2 x y : ℝ) :
    (angmomFlux (flux P n cs2) x y).a = (flux P n cs2).a ∧
      (angmomFlux (flux P n cs2) x y).b =
        velocityAlong P n * (toAngmom P x y).b + gasPressure P cs2 * (x * n.n1 + y * n.n2) ∧
      (angmomFlux (flux P n cs2) x y).c =
        velocityAlong P n * (toAngmom P x y).c + gasPressure P cs2 * (x * n.n2 - y * n.n1) ∧
      (sourceAngmom P cs2).b = (flux P ⟨1, 0, 0⟩ cs2).b + (flux P ⟨0, 1, 0⟩ cs2).c ∧
      (sourceAngmom P cs2).c = (flux P ⟨1, 0, 0⟩ cs2).c - (flux P ⟨0, 1, 0⟩ cs2).b ∧
      (sourceAngmom P cs2).a = 0 := by
  refine ⟨rfl, ?_, ?_, ?_, ?_, rfl⟩ <;>
    simp only [angmomFlux, flux, toAngmom, sourceAngmom, velocityAlong, velocitySquared, gasPressure, UnitVec.project] <;>
    ring

/-- A disk that rotates. -/
example : recoverAngmom (toAngmom ⟨2, -1, 3⟩ 3 4) 3 4 = .ok ⟨2, -1, 3⟩ :=
  recoverAngmom_toAngmom _ (by norm_num) _ _ (by simp)

/-! ## HLLE -/

/-- The components. -/
theorem hlle_eq (Pl Pr : Tri) (cl cr : ℝ) (n : UnitVec ℝ) :
    let ap := max 0 (max (wavespeeds Pl n cl).2 (wavespeeds Pr n cr).2)
    let am := min 0 (min (wavespeeds Pl n cl).1 (wavespeeds Pr n cr).1)
    hlle Pl Pr cl cr n =
      ⟨Hlle.core (flux Pl n cl).a (flux Pr n cr).a (toConserved Pl).a (toConserved Pr).a ap am,
       Hlle.core (flux Pl n cl).b (flux Pr n cr).b (toConserved Pl).b (toConserved Pr).b ap am,
       Hlle.core (flux Pl n cl).c (flux Pr n cr).c (toConserved Pl).c (toConserved Pr).c ap am⟩ := rfl

theorem speeds_lt (Pl Pr : Tri) (n : UnitVec ℝ) {cl : ℝ} (cr : ℝ) (hl : 0 < cl) :
    min 0 (min (wavespeeds Pl n cl).1 (wavespeeds Pr n cr).1) < max 0 (max (wavespeeds Pl n cl).2 (wavespeeds Pr n cr).2) := by
  have h : (wavespeeds Pl n cl).1 < (wavespeeds Pl n cl).2 := by
    have := Real.sqrt_pos.2 hl
    simp only [wavespeeds]
    linarith
  exact lt_of_le_of_lt ((min_le_right _ _).trans (min_le_left _ _)) (h.trans_le ((le_max_left _ _).trans (le_max_right _ _)))

/-- **C55**: consistency. -/
theorem hlle_consistent (P : Tri) (n : UnitVec ℝ) (cs2 : ℝ) (h : 0 < cs2) : hlle P P cs2 cs2 n = flux P n cs2 := by
  have := speeds_lt P P n cs2 h
  rw [hlle_eq]
  ext <;> exact Hlle.core_consistent _ _ this

/-- **C55**: upwind fluxes if all waves move one way. -/
theorem hlle_upwind (Pl Pr : Tri) (n : UnitVec ℝ) (cl cr : ℝ) (hl : 0 < cl) :
    (0 ≤ (wavespeeds Pl n cl).1 → 0 ≤ (wavespeeds Pr n cr).1 → hlle Pl Pr cl cr n = flux Pl n cl) ∧
      ((wavespeeds Pl n cl).2 ≤ 0 → (wavespeeds Pr n cr).2 ≤ 0 → hlle Pl Pr cl cr n = flux Pr n cr) := by
  have := speeds_lt Pl Pr n cr hl
  constructor
  · intro h1 h2
    rw [hlle_eq]
    rw [min_eq_left (le_min h1 h2)] at this ⊢
    ext <;> exact Hlle.core_left _ _ _ _ this
  · intro h1 h2
    rw [hlle_eq]
    rw [max_eq_left (max_le h1 h2)] at this ⊢
    ext <;> exact Hlle.core_right _ _ _ _ this

/-- Two supersonic streams. -/
example : hlle ⟨2, 3, 1⟩ ⟨1, 4, 0⟩ 4 1 ⟨1, 0, 0⟩ = flux ⟨2, 3, 1⟩ ⟨1, 0, 0⟩ 4 := by
  have h4 : Real.sqrt 4 = 2 := by
    rw [show (4 : ℝ) = 2 ^ 2 by norm_num]
    exact Real.sqrt_sq (by norm_num)
  refine (hlle_upwind _ _ _ 4 1 (by norm_num)).1 ?_ ?_
  · simp only [wavespeeds, velocityAlong, UnitVec.project, h4]
    norm_num
  · simp only [wavespeeds, velocityAlong, UnitVec.project, Real.sqrt_one]
    norm_num

/-- The opposite direction. -/
def opposite (n : UnitVec ℝ) : UnitVec ℝ := ⟨-n.n1, -n.n2, -n.n3⟩

theorem velocityAlong_opposite (P : Tri) (n : UnitVec ℝ) : velocityAlong P (opposite n) = -velocityAlong P n := by
  simp only [velocityAlong, UnitVec.project, opposite]; ring

theorem flux_opposite (P : Tri) (n : UnitVec ℝ) (cs2 : ℝ) : flux P (opposite n) cs2 = (flux P n cs2).mul (-1) := by
  ext <;> simp only [flux, velocityAlong_opposite, Tri.mul] <;> (try simp only [opposite]) <;> ring

theorem wavespeeds_opposite (P : Tri) (n : UnitVec ℝ) (cs2 : ℝ) :
    wavespeeds P (opposite n) cs2 = (-(wavespeeds P n cs2).2, -(wavespeeds P n cs2).1) := by
  simp only [wavespeeds, velocityAlong_opposite, Prod.mk.injEq]; constructor <;> ring

theorem max_neg_neg3 (a b : ℝ) : max 0 (max (-a) (-b)) = -min 0 (min a b) := by
  rw [max_neg_neg, ← max_neg_neg 0, neg_zero]

theorem min_neg_neg3 (a b : ℝ) : min 0 (min (-a) (-b)) = -max 0 (max a b) := by
  rw [min_neg_neg, ← min_neg_neg 0, neg_zero]

/-- **C55**: seen from the other side, the flux is the opposite. -/
theorem hlle_opposite (Pl Pr : Tri) (cl cr : ℝ) (n : UnitVec ℝ) :
    hlle Pr Pl cr cl (opposite n) = (hlle Pl Pr cl cr n).mul (-1) := by
  rw [hlle_eq, hlle_eq]
  simp only [wavespeeds_opposite, max_neg_neg3, min_neg_neg3, flux_opposite, Tri.mul, mul_neg_one]
  rw [min_comm (wavespeeds Pr n cr).1, max_comm (wavespeeds Pr n cr).2]
  simp only [Hlle.core_mirror]

example : hlle ⟨2, -1, 3⟩ ⟨1, 2, 0⟩ 2 1 (opposite ⟨3 / 5, 4 / 5, 0⟩) = (hlle ⟨1, 2, 0⟩ ⟨2, -1, 3⟩ 1 2 ⟨3 / 5, 4 / 5, 0⟩).mul (-1) :=
  hlle_opposite _ _ _ _ _

/-- **C81**: a step of the first-order scheme keeps the density positive if no wave crosses more than half of the
cell. -/
theorem hlle_positive (Pl P Pr : Tri) (hl : 0 < Pl.a) (h : 0 < P.a) (hr : 0 < Pr.a) (cl c cr : ℝ) (hcl : 0 < cl)
    (hc : 0 < c) (n : UnitVec ℝ) (k : ℝ) (hk : 0 < k)
    (hcfl : ∀ w ∈ [wavespeeds Pl n cl, wavespeeds P n c, wavespeeds Pr n cr], k * |w.1| < 1 / 2 ∧ k * |w.2| < 1 / 2) :
    0 < (toConserved P).a - k * ((hlle P Pr c cr n).a - (hlle Pl P cl c n).a) := by
  have star : ∀ (A B : Tri) (a b : ℝ), 0 < A.a → 0 < B.a → ∀ ap am : ℝ, (wavespeeds B n b).2 ≤ ap →
      am ≤ (wavespeeds A n a).1 → am < ap →
      0 ≤ Hlle.star (flux A n a).a (flux B n b).a (toConserved A).a (toConserved B).a ap am := by
    intro A B a b hA hB ap am hap ham hlt
    refine div_nonneg ?_ (by linarith)
    have e1 := Real.sqrt_nonneg a
    have e2 := Real.sqrt_nonneg b
    simp only [wavespeeds] at hap ham
    simp only [flux, toConserved]
    nlinarith
  have cm : ∀ x : ℝ, k * |x| < 1 / 2 → -(k * x) < 1 / 2 ∧ k * x < 1 / 2 := fun x hx => by
    constructor <;> nlinarith [neg_abs_le x, le_abs_self x]
  -- the face on the right
  have half1 : 0 < 1 / 2 * P.a - k * ((hlle P Pr c cr n).a - (flux P n c).a) := by
    have hlt := speeds_lt P Pr n cr hc
    rw [hlle_eq]
    set ap := max 0 (max (wavespeeds P n c).2 (wavespeeds Pr n cr).2)
    set am := min 0 (min (wavespeeds P n c).1 (wavespeeds Pr n cr).1) with ham
    have hs := star P Pr c cr h hr ap am ((le_max_right _ _).trans (le_max_right _ _))
      ((min_le_right _ _).trans (min_le_left _ _)) hlt
    rw [Hlle.core_star_left _ _ _ _ hlt]
    have ham0 : am ≤ 0 := min_le_left _ _
    have hcm : -(k * am) < 1 / 2 := by
      rw [ham]
      rcases min_choice (0 : ℝ) (min (wavespeeds P n c).1 (wavespeeds Pr n cr).1) with e | e
      · rw [e]; norm_num
      · rw [e]
        rcases min_choice (wavespeeds P n c).1 (wavespeeds Pr n cr).1 with e | e <;> rw [e]
        · exact (cm _ (hcfl _ (by simp)).1).1
        · exact (cm _ (hcfl _ (by simp)).1).1
    have e1 : 0 < (1 / 2 + k * am) * P.a := mul_pos (by linarith) h
    have e2 := mul_nonneg (show 0 ≤ -(k * am) by nlinarith) hs
    have e3 : (toConserved P).a = P.a := rfl
    rw [e3] at e2 ⊢
    nlinarith
  -- the face on the left
  have half2 : 0 < 1 / 2 * P.a + k * ((hlle Pl P cl c n).a - (flux P n c).a) := by
    have hlt := speeds_lt Pl P n c hcl
    rw [hlle_eq]
    set ap := max 0 (max (wavespeeds Pl n cl).2 (wavespeeds P n c).2) with hap
    set am := min 0 (min (wavespeeds Pl n cl).1 (wavespeeds P n c).1)
    have hs := star Pl P cl c hl h ap am ((le_max_right _ _).trans (le_max_right _ _))
      ((min_le_right _ _).trans (min_le_left _ _)) hlt
    rw [Hlle.core_star_right _ _ _ _ hlt]
    have hap0 : 0 ≤ ap := le_max_left _ _
    have hcm : k * ap < 1 / 2 := by
      rw [hap]
      rcases max_choice (0 : ℝ) (max (wavespeeds Pl n cl).2 (wavespeeds P n c).2) with e | e
      · rw [e]; norm_num
      · rw [e]
        rcases max_choice (wavespeeds Pl n cl).2 (wavespeeds P n c).2 with e | e <;> rw [e]
        · exact (cm _ (hcfl _ (by simp)).2).2
        · exact (cm _ (hcfl _ (by simp)).2).2
    have e1 : 0 < (1 / 2 - k * ap) * P.a := mul_pos (by linarith) h
    have e2 := mul_nonneg (show 0 ≤ k * ap by positivity) hs
    have e3 : (toConserved P).a = P.a := rfl
    rw [e3] at e2 ⊢
    nlinarith
  have e3 : (toConserved P).a = P.a := rfl
  rw [e3]
  linarith

/-! ## The Roe average -/

/-- The derivative of the flux along the first axis with respect to mass and momentum, at velocity `(u, v)`. -/
noncomputable def jacobian (u v cs2 : ℝ) (d : Tri) : Tri :=
  ⟨d.b, (cs2 - u * u) * d.a + 2 * u * d.b, -u * v * d.a + v * d.b + u * d.c⟩

/-- **C82**: where the sound speed is the same on both sides, the Roe average has the Roe property. -/
theorem roe_property (Pl Pr : Tri) (hl : 0 < Pl.a) (hr : 0 < Pr.a) (cs2 : ℝ) :
    jacobian (roeAverage Pr Pl).b (roeAverage Pr Pl).c cs2 ((toConserved Pr).sub (toConserved Pl)) =
      (flux Pr ⟨1, 0, 0⟩ cs2).sub (flux Pl ⟨1, 0, 0⟩ cs2) := by
  have kl := Real.sqrt_pos.2 hl
  have kr := Real.sqrt_pos.2 hr
  obtain ⟨dl, ul, vl⟩ := Pl
  obtain ⟨dr, ur, vr⟩ := Pr
  have el := Real.sq_sqrt hl.le
  have er := Real.sq_sqrt hr.le
  simp only at *
  simp only [jacobian, roeAverage, toConserved, flux, Tri.sub, Tri.mul, Tri.add, Tri.div, velocityAlong, UnitVec.project,
    gasPressure]
  generalize Real.sqrt dl = a at *
  generalize Real.sqrt dr = b at *
  subst el er
  have hab : b + a ≠ 0 := by linarith
  ext <;> simp only
  · ring
  · field_simp; ring
  · field_simp; ring

example : jacobian (roeAverage ⟨1, 2, 0⟩ ⟨4, -1, 3⟩).b (roeAverage ⟨1, 2, 0⟩ ⟨4, -1, 3⟩).c 2
    ((toConserved ⟨1, 2, 0⟩).sub (toConserved ⟨4, -1, 3⟩)) = (flux ⟨1, 2, 0⟩ ⟨1, 0, 0⟩ 2).sub (flux ⟨4, -1, 3⟩ ⟨1, 0, 0⟩ 2) :=
  roe_property _ _ (by norm_num) (by norm_num) 2

end Verif.Iso2d
