import Verif.Model.Euler
import Verif.Model.Srhd
import Verif.Spec.Spherical
import Mathlib.Tactic.FieldSimp
import Mathlib.Tactic.LinearCombination

/-!
# C96: source terms in spherical coordinates

A uniform flow stays as it is.  In spherical coordinates its components change from point to point, and the divergence of the fluxes is balanced
by the geometrical source terms.  Through every point goes a uniform flow with any given state there, so that this determines the source terms.
-/

namespace Verif.Spherical

open Geometry

theorem alongR_dq (a b c q p : ℝ) : HasDerivAt (fun x => alongR a b c x p) (alongQ a b c q p) q := by
  unfold alongR alongQ
  have h := (((((Real.hasDerivAt_sin q).mul_const (Real.cos p)).const_mul a).add (((Real.hasDerivAt_sin q).mul_const (Real.sin p)).const_mul b)).add
    ((Real.hasDerivAt_cos q).const_mul c))
  refine h.congr_deriv (by ring)

theorem alongQ_dq (a b c q p : ℝ) : HasDerivAt (fun x => alongQ a b c x p) (-alongR a b c q p) q := by
  unfold alongR alongQ
  have h := (((((Real.hasDerivAt_cos q).mul_const (Real.cos p)).const_mul a).add (((Real.hasDerivAt_cos q).mul_const (Real.sin p)).const_mul b)).sub
    ((Real.hasDerivAt_sin q).const_mul c))
  refine h.congr_deriv (by ring)

theorem alongR_dp (a b c q p : ℝ) : HasDerivAt (fun x => alongR a b c q x) (Real.sin q * alongP a b p) p := by
  unfold alongR alongP
  have h := (((((Real.hasDerivAt_cos p).const_mul (Real.sin q)).const_mul a).add (((Real.hasDerivAt_sin p).const_mul (Real.sin q)).const_mul b)).add_const
    (c * Real.cos q))
  refine h.congr_deriv (by ring)

theorem alongQ_dp (a b c q p : ℝ) : HasDerivAt (fun x => alongQ a b c q x) (Real.cos q * alongP a b p) p := by
  unfold alongQ alongP
  have h := (((((Real.hasDerivAt_cos p).const_mul (Real.cos q)).const_mul a).add (((Real.hasDerivAt_sin p).const_mul (Real.cos q)).const_mul b)).sub_const
    (c * Real.sin q))
  refine h.congr_deriv (by ring)

theorem alongP_dp (a b c q p : ℝ) : HasDerivAt (fun x => alongP a b x) (-(Real.sin q * alongR a b c q p + Real.cos q * alongQ a b c q p)) p := by
  unfold alongQ alongP alongR
  have h := ((Real.hasDerivAt_sin p).const_mul (-a)).add ((Real.hasDerivAt_cos p).const_mul b)
  refine h.congr_deriv ?_
  linear_combination (a * Real.cos p + b * Real.sin p) * Real.sin_sq_add_cos_sq q

/-- The square of the length does not depend on the coordinates. -/
theorem along_sq (a b c q p : ℝ) :
    alongR a b c q p * alongR a b c q p + alongQ a b c q p * alongQ a b c q p + alongP a b p * alongP a b p = a * a + b * b + c * c := by
  unfold alongQ alongP alongR
  linear_combination ((a * Real.cos p + b * Real.sin p) ^ 2 + c ^ 2) * Real.sin_sq_add_cos_sq q + (a ^ 2 + b ^ 2) * Real.sin_sq_add_cos_sq p

theorem cot_eq {q : ℝ} : Real.tan (Real.pi / 2 - q) = Real.cos q / Real.sin q := by
  rw [Real.tan_pi_div_two_sub, Real.tan_eq_sin_div_cos, inv_div]

variable (a b c D : ℝ) {r q : ℝ} (p : ℝ)

/-- A uniform field has no divergence. -/
theorem divergence_scalar (hr : r ≠ 0) (hq : Real.sin q ≠ 0) :
    Divergence (fun _ q p => D * alongR a b c q p) (fun _ q p => D * alongQ a b c q p) (fun _ _ p => D * alongP a b p) r q p 0 := by
  refine ⟨_, _, _, (hasDerivAt_pow 2 r).mul_const _, (Real.hasDerivAt_sin q).mul ((alongQ_dq a b c q p).const_mul D), (alongP_dp a b c q p).const_mul D, ?_⟩
  field_simp
  push_cast
  ring

/-- The divergence of a uniform stress `D v v + P` along the radius. -/
theorem divergence_R (P : ℝ) (hr : r ≠ 0) (hq : Real.sin q ≠ 0) :
    Divergence (fun _ q p => D * alongR a b c q p * alongR a b c q p + P) (fun _ q p => D * alongQ a b c q p * alongR a b c q p)
      (fun _ q p => D * alongP a b p * alongR a b c q p) r q p
      ((2 * P + D * (alongQ a b c q p * alongQ a b c q p + alongP a b p * alongP a b p)) / r) := by
  refine ⟨_, _, _, (hasDerivAt_pow 2 r).mul_const _,
    (Real.hasDerivAt_sin q).mul (((alongQ_dq a b c q p).const_mul D).mul (alongR_dq a b c q p)),
    ((alongP_dp a b c q p).const_mul D).mul (alongR_dp a b c q p), ?_⟩
  field_simp
  push_cast
  ring

/-- The divergence of a uniform stress in the direction of the polar angle. -/
theorem divergence_Q (P : ℝ) (hr : r ≠ 0) (hq : Real.sin q ≠ 0) :
    Divergence (fun _ q p => D * alongR a b c q p * alongQ a b c q p) (fun _ q p => D * alongQ a b c q p * alongQ a b c q p + P)
      (fun _ q p => D * alongP a b p * alongQ a b c q p) r q p
      ((Real.tan (Real.pi / 2 - q) * P + D * (alongP a b p * alongP a b p * Real.tan (Real.pi / 2 - q) - alongR a b c q p * alongQ a b c q p)) / r) := by
  refine ⟨_, _, _, (hasDerivAt_pow 2 r).mul_const _,
    (Real.hasDerivAt_sin q).mul ((((alongQ_dq a b c q p).const_mul D).mul (alongQ_dq a b c q p)).add_const P),
    ((alongP_dp a b c q p).const_mul D).mul (alongQ_dp a b c q p), ?_⟩
  rw [cot_eq]
  field_simp
  push_cast
  ring

/-- The divergence of a uniform stress in the direction of the azimuth. -/
theorem divergence_P (P : ℝ) (hr : r ≠ 0) (hq : Real.sin q ≠ 0) :
    Divergence (fun _ q p => D * alongR a b c q p * alongP a b p) (fun _ q p => D * alongQ a b c q p * alongP a b p)
      (fun _ _ p => D * alongP a b p * alongP a b p + P) r q p
      (-alongP a b p * D * (alongR a b c q p + alongQ a b c q p * Real.tan (Real.pi / 2 - q)) / r) := by
  refine ⟨_, _, _, (hasDerivAt_pow 2 r).mul_const _,
    (Real.hasDerivAt_sin q).mul (((alongQ_dq a b c q p).const_mul D).mul_const _),
    (((alongP_dp a b c q p).const_mul D).mul (alongP_dp a b c q p)).add_const P, ?_⟩
  rw [cot_eq]
  field_simp
  push_cast
  ring

theorem Divergence.congr {Fr Fq Fp Gr Gq Gp : ℝ → ℝ → ℝ → ℝ} {S T : ℝ} (h : Divergence Fr Fq Fp r q p S) (hr : Fr = Gr) (hq : Fq = Gq) (hp : Fp = Gp)
    (hS : S = T) : Divergence Gr Gq Gp r q p T := by
  subst hr hq hp hS
  exact h

/-- The uniform flow of the gas with density `d`, pressure `P` and velocity `(a, b, c)`, as it is stored. -/
noncomputable def flow (d a b c P q p : ℝ) : Fin 5 → ℝ := ![d, alongR a b c q p, alongQ a b c q p, alongP a b p, P]

/-- C96 for the equations of Euler: at every point off the axis, the divergence of each of the five fluxes of a uniform flow is the source term. -/
theorem euler_uniform (d a b c P g r q p : ℝ) (hr : r ≠ 0) (hq : Real.sin q ≠ 0) (i : Fin 5) :
    Divergence (fun _ q p => Euler.flux (flow d a b c P q p) ⟨1, 0, 0⟩ g i) (fun _ q p => Euler.flux (flow d a b c P q p) ⟨0, 1, 0⟩ g i)
      (fun _ q p => Euler.flux (flow d a b c P q p) ⟨0, 0, 1⟩ g i) r q p
      (Euler.sphericalSource (flow d a b c P q p) r (Real.tan (Real.pi / 2 - q)) i) := by
  have e : ∀ q p, 1 / 2 * d * (alongR a b c q p * alongR a b c q p + alongQ a b c q p * alongQ a b c q p + alongP a b p * alongP a b p)
      = 1 / 2 * d * (a * a + b * b + c * c) := fun q p => by rw [along_sq]
  fin_cases i
  · refine (divergence_scalar a b c d p hr hq).congr p ?_ ?_ ?_ ?_ <;>
      (try (funext x y z)) <;> simp [Euler.flux, Euler.fluxWith, Euler.toConserved, Euler.velocityAlong, UnitVec.project, flow, Euler.sphericalSource, mul_comm]
  · refine (divergence_R a b c d p P hr hq).congr p ?_ ?_ ?_ ?_ <;>
      (try (funext x y z)) <;> simp [Euler.flux, Euler.fluxWith, Euler.toConserved, Euler.velocityAlong, UnitVec.project, flow, Euler.sphericalSource] <;> ring
  · refine (divergence_Q a b c d p P hr hq).congr p ?_ ?_ ?_ ?_ <;>
      (try (funext x y z)) <;> simp [Euler.flux, Euler.fluxWith, Euler.toConserved, Euler.velocityAlong, UnitVec.project, flow, Euler.sphericalSource] <;> ring
  · refine (divergence_P a b c d p P hr hq).congr p ?_ ?_ ?_ ?_ <;>
      (try (funext x y z)) <;> simp [Euler.flux, Euler.fluxWith, Euler.toConserved, Euler.velocityAlong, UnitVec.project, flow, Euler.sphericalSource] <;> ring
  · refine (divergence_scalar a b c (1 / 2 * d * (a * a + b * b + c * c) + P / (g - 1) + P) p hr hq).congr p ?_ ?_ ?_ ?_ <;>
      (try (funext x y z; rw [← e y z])) <;>
      simp [Euler.flux, Euler.fluxWith, Euler.toConserved, Euler.velocityAlong, Euler.velocitySquared, UnitVec.project, flow, Euler.sphericalSource] <;> ring

/-- C96 for the relativistic equations: the stored components are those of the four-velocity. -/
theorem srhd_uniform (d a b c P g r q p : ℝ) (hd : d ≠ 0) (hr : r ≠ 0) (hq : Real.sin q ≠ 0) (i : Fin 5) :
    Divergence (fun _ q p => Srhd.flux (flow d a b c P q p) ⟨1, 0, 0⟩ g i) (fun _ q p => Srhd.flux (flow d a b c P q p) ⟨0, 1, 0⟩ g i)
      (fun _ q p => Srhd.flux (flow d a b c P q p) ⟨0, 0, 1⟩ g i) r q p
      (Srhd.sphericalSource (flow d a b c P q p) r (Real.tan (Real.pi / 2 - q)) g i) := by
  have e : ∀ q p, Srhd.lorentzFactor (flow d a b c P q p) = Real.sqrt (1 + (a * a + b * b + c * c)) := fun q p => by
    rw [← along_sq a b c q p]
    rfl
  have hW : Real.sqrt (1 + (a * a + b * b + c * c)) ≠ 0 :=
    (Real.sqrt_pos.2 (by have := mul_self_nonneg a; have := mul_self_nonneg b; have := mul_self_nonneg c; linarith)).ne'
  have hH : ∀ q p, Srhd.specificEnthalpy (flow d a b c P q p) g = (d + P * (1 + 1 / (g - 1))) / d := fun q p => rfl
  have hE : ∀ q p, Srhd.enthalpyDensity (flow d a b c P q p) g = d + P * (1 + 1 / (g - 1)) := fun q p => rfl
  generalize Real.sqrt (1 + (a * a + b * b + c * c)) = W at e hW
  generalize d + P * (1 + 1 / (g - 1)) = H at hH hE
  have f0 : ∀ q p, flow d a b c P q p 0 = d := fun _ _ => rfl
  have f1 : ∀ q p, flow d a b c P q p 1 = alongR a b c q p := fun _ _ => rfl
  have f2 : ∀ q p, flow d a b c P q p 2 = alongQ a b c q p := fun _ _ => rfl
  have f3 : ∀ q p, flow d a b c P q p 3 = alongP a b p := fun _ _ => rfl
  have f4 : ∀ q p, flow d a b c P q p 4 = P := fun _ _ => rfl
  fin_cases i
  · refine (divergence_scalar a b c d p hr hq).congr p ?_ ?_ ?_ ?_ <;>
      (try (funext x y z)) <;>
      simp [Srhd.flux, Srhd.fluxWith, Srhd.toConserved, Srhd.betaAlong, UnitVec.project, f0, f1, f2, f3, f4, e, hH, hE, Srhd.sphericalSource] <;> field_simp
  · refine (divergence_R a b c H p P hr hq).congr p ?_ ?_ ?_ ?_ <;>
      (try (funext x y z)) <;>
      simp [Srhd.flux, Srhd.fluxWith, Srhd.toConserved, Srhd.betaAlong, UnitVec.project, f0, f1, f2, f3, f4, e, hH, hE, Srhd.sphericalSource] <;> field_simp
  · refine (divergence_Q a b c H p P hr hq).congr p ?_ ?_ ?_ ?_ <;>
      (try (funext x y z)) <;>
      simp [Srhd.flux, Srhd.fluxWith, Srhd.toConserved, Srhd.betaAlong, UnitVec.project, f0, f1, f2, f3, f4, e, hH, hE, Srhd.sphericalSource] <;> field_simp
  · refine (divergence_P a b c H p P hr hq).congr p ?_ ?_ ?_ ?_ <;>
      (try (funext x y z)) <;>
      simp [Srhd.flux, Srhd.fluxWith, Srhd.toConserved, Srhd.betaAlong, UnitVec.project, f0, f1, f2, f3, f4, e, hH, hE, Srhd.sphericalSource] <;> field_simp
  · refine (divergence_scalar a b c ((d * W * (H / d) * W - P - d * W) / W + P / W) p hr hq).congr p ?_ ?_ ?_ ?_ <;>
      (try (funext x y z)) <;>
      simp [Srhd.flux, Srhd.fluxWith, Srhd.toConserved, Srhd.betaAlong, UnitVec.project, f0, f1, f2, f3, f4, e, hH, hE, Srhd.sphericalSource] <;> ring

/-- A relativistic flow along the z axis, on the plane of the equator. -/
example (i : Fin 5) : Divergence (fun _ q p => Srhd.flux (flow 1 0 0 2 1 q p) ⟨1, 0, 0⟩ (4 / 3) i) (fun _ q p => Srhd.flux (flow 1 0 0 2 1 q p) ⟨0, 1, 0⟩ (4 / 3) i)
      (fun _ q p => Srhd.flux (flow 1 0 0 2 1 q p) ⟨0, 0, 1⟩ (4 / 3) i) 3 (Real.pi / 2) 0
      (Srhd.sphericalSource (flow 1 0 0 2 1 (Real.pi / 2) 0) 3 (Real.tan (Real.pi / 2 - Real.pi / 2)) (4 / 3) i) :=
  srhd_uniform 1 0 0 2 1 (4 / 3) 3 (Real.pi / 2) 0 one_ne_zero (by norm_num) (by simp) i

/-- Any state of the gas at a point is that of a uniform flow. -/
theorem flow_any (P : Fin 5 → ℝ) (q p : ℝ) : ∃ a b c, flow (P 0) a b c (P 4) q p = P := by
  have hq := Real.sin_sq_add_cos_sq q
  have hp := Real.sin_sq_add_cos_sq p
  refine ⟨P 1 * (Real.sin q * Real.cos p) + P 2 * (Real.cos q * Real.cos p) - P 3 * Real.sin p,
    P 1 * (Real.sin q * Real.sin p) + P 2 * (Real.cos q * Real.sin p) + P 3 * Real.cos p, P 1 * Real.cos q - P 2 * Real.sin q, ?_⟩
  funext i
  fin_cases i
  · rfl
  · show alongR _ _ _ _ _ = P 1
    unfold alongR
    linear_combination P 1 * hq + (P 1 * Real.sin q ^ 2 + P 2 * Real.sin q * Real.cos q) * hp
  · show alongQ _ _ _ _ _ = P 2
    unfold alongQ
    linear_combination P 2 * hq + (P 2 * Real.cos q ^ 2 + P 1 * Real.sin q * Real.cos q) * hp
  · show alongP _ _ _ = P 3
    unfold alongP
    linear_combination P 3 * hp
  · rfl

example : ∃ a b c, flow 2 a b c 5 (1 / 2) (1 / 3) = ![2, -3, 7, 11, 5] := flow_any ![2, -3, 7, 11, 5] (1 / 2) (1 / 3)

/-- The divergence is determined by the field. -/
theorem divergence_unique {Fr Fq Fp : ℝ → ℝ → ℝ → ℝ} {r q p S T : ℝ} (h : Divergence Fr Fq Fp r q p S) (h' : Divergence Fr Fq Fp r q p T) : S = T := by
  obtain ⟨_, _, _, h1, h2, h3, h4⟩ := h
  obtain ⟨_, _, _, k1, k2, k3, k4⟩ := h'
  rw [← h4, ← k4, h1.unique k1, h2.unique k2, h3.unique k3]

/-- C96 for flow along the radius: where the gas has no velocity along the angles, the source terms "for 1d radial flow" are the source terms, except for
the one in the direction of the polar angle, which balances the pressure on the sides of a cone and is left out together with the fluxes through them. -/
theorem radial_source (P : Fin 5 → ℝ) (r cotq g : ℝ) (h2 : P 2 = 0) (h3 : P 3 = 0) (i : Fin 5) (hi : i ≠ 2) :
    Euler.sphericalSourceRadial P r i = Euler.sphericalSource P r cotq i ∧ Srhd.sphericalSourceRadial P r g i = Srhd.sphericalSource P r cotq g i := by
  fin_cases i <;> simp [Euler.sphericalSourceRadial, Euler.sphericalSource, Srhd.sphericalSourceRadial, Srhd.sphericalSource, h2, h3] at hi ⊢

/-- A flow along the x axis, at a point off the axis of the coordinates: it moves towards the polar axis and sideways there. -/
example : ∃ S, Divergence (fun _ q p => Euler.flux (flow 1 1 0 0 1 q p) ⟨1, 0, 0⟩ (5 / 3) 1) (fun _ q p => Euler.flux (flow 1 1 0 0 1 q p) ⟨0, 1, 0⟩ (5 / 3) 1)
      (fun _ q p => Euler.flux (flow 1 1 0 0 1 q p) ⟨0, 0, 1⟩ (5 / 3) 1) 2 (Real.pi / 2) (Real.pi / 2) S ∧ S = 3 / 2 := by
  refine ⟨_, euler_uniform 1 1 0 0 1 (5 / 3) 2 (Real.pi / 2) (Real.pi / 2) (by norm_num) (by simp) 1, ?_⟩
  simp [Euler.sphericalSource, flow, alongQ, alongP]
  norm_num

end Verif.Spherical
