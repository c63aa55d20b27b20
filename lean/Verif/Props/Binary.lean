import Verif.Model.Binary
import Verif.Spec.Binary
import Verif.Props.Plm
import Mathlib.Tactic.FieldSimp
import Mathlib.Tactic.Positivity
import Mathlib.Tactic.NormNum
import Mathlib.Analysis.Calculus.FDeriv.Prod
import Mathlib.Analysis.Calculus.FDeriv.Mul
import Mathlib.Analysis.SpecialFunctions.Pow.Deriv

/-!
# C74 and C75: viscous stress and gravity at a point
-/

namespace Verif.Binary

open Iso2d

/-- **C74**: the viscous fluxes of momentum through faces across either axis are rows of one stress tensor, that of the averages of
the derivatives on the two sides of the face; the tensor is symmetric and has no trace; mass is not carried; and viscosity that is
not negative never gives energy to the flow. -/
theorem viscous_stress (gl gr hl hr : Tri) (mu : ℝ) :
    (∃ G : Matrix (Fin 2) (Fin 2) ℝ,
      (G 0 0 = (gl.b + gr.b) / 2 ∧ G 0 1 = (gl.c + gr.c) / 2 ∧ G 1 0 = (hl.b + hr.b) / 2 ∧ G 1 1 = (hl.c + hr.c) / 2) ∧
      viscousFlux 0 (gl, gr) (hl, hr) mu = .ok ⟨0, -stress mu G 0 0, -stress mu G 0 1⟩ ∧
      viscousFlux 1 (hl, hr) (gl, gr) mu = .ok ⟨0, -stress mu G 1 0, -stress mu G 1 1⟩) ∧
    ∀ G : Matrix (Fin 2) (Fin 2) ℝ, (stress mu G).transpose = stress mu G ∧ (stress mu G).trace = 0 ∧
      (0 ≤ mu → 0 ≤ ∑ i, ∑ j, stress mu G i j * G i j) := by
  have e : ∀ G : Matrix (Fin 2) (Fin 2) ℝ, stress mu G 0 0 = mu * (G 0 0 - G 1 1) ∧ stress mu G 0 1 = mu * (G 0 1 + G 1 0) ∧
      stress mu G 1 0 = mu * (G 0 1 + G 1 0) ∧ stress mu G 1 1 = mu * (G 1 1 - G 0 0) := by
    intro G
    refine ⟨?_, ?_, ?_, ?_⟩ <;> simp [stress, Matrix.trace, Fin.sum_univ_two, -mul_eq_mul_left_iff] <;> ring
  constructor
  · refine ⟨!![(gl.b + gr.b) / 2, (gl.c + gr.c) / 2; (hl.b + hr.b) / 2, (hl.c + hr.c) / 2], by simp, ?_, ?_⟩
    · rw [(e _).1, (e _).2.1]
      simp only [viscousFlux, Matrix.of_apply, Matrix.cons_val_zero, Matrix.cons_val_one, Matrix.cons_val', Matrix.cons_val_fin_one]
      congr 2 <;> ring
    · rw [(e _).2.2.1, (e _).2.2.2]
      simp only [viscousFlux, Matrix.of_apply, Matrix.cons_val_zero, Matrix.cons_val_one, Matrix.cons_val', Matrix.cons_val_fin_one]
      congr 2 <;> ring
  · intro G
    refine ⟨?_, ?_, fun hmu => ?_⟩
    · unfold stress
      rw [Matrix.transpose_smul, Matrix.transpose_sub, Matrix.transpose_add, Matrix.transpose_transpose, Matrix.transpose_smul,
        Matrix.transpose_one, add_comm]
    · rw [Matrix.trace, Fin.sum_univ_two, Matrix.diag_apply, Matrix.diag_apply, (e G).1, (e G).2.2.2]
      ring
    · simp only [Fin.sum_univ_two]
      rw [(e G).1, (e G).2.1, (e G).2.2.1, (e G).2.2.2]
      have : mu * (G 0 0 - G 1 1) * G 0 0 + mu * (G 0 1 + G 1 0) * G 0 1 +
          (mu * (G 0 1 + G 1 0) * G 1 0 + mu * (G 1 1 - G 0 0) * G 1 1) =
          mu * ((G 0 0 - G 1 1) ^ 2 + (G 0 1 + G 1 0) ^ 2) := by ring
      rw [this]
      positivity

/-- The mean of two gradients on each side of a face. -/
example : ∃ G : Matrix (Fin 2) (Fin 2) ℝ, G 0 1 = 2 ∧ viscousFlux 0 (⟨0, 0, 1⟩, ⟨0, 0, 3⟩) (⟨0, 4, 0⟩, ⟨0, 0, 0⟩) 5 = .ok ⟨0, -stress 5 G 0 0, -stress 5 G 0 1⟩ := by
  obtain ⟨⟨G, ⟨_, h1, _⟩, h2, _⟩, _⟩ := viscous_stress ⟨0, 0, 1⟩ ⟨0, 0, 3⟩ ⟨0, 4, 0⟩ ⟨0, 0, 0⟩ 5
  exact ⟨G, h1.trans (by norm_num), h2⟩

/-- **C74**, flows without shear: where the velocities in the cells of a square grid are those of a rigid rotation with uniform
motion, whatever the density, the limited differences give no viscous flux through any face. -/
theorem viscous_rigid (z : Fin 9 → Bool) (theta h u0 v0 omega x0 y0 mu : ℝ) (ht : 0 ≤ theta) (rho : ℤ → ℤ → ℝ) (i j : ℤ) :
    let P : ℤ → ℤ → Tri := fun i j => ⟨rho i j, u0 - omega * (y0 + j * h), v0 + omega * (x0 + i * h)⟩
    let gx := fun i j => gradient z theta h (P (i - 1) j) (P i j) (P (i + 1) j)
    let gy := fun i j => gradient z theta h (P i (j - 1)) (P i j) (P i (j + 1))
    viscousFlux 0 (gx i j, gx (i + 1) j) (gy i j, gy (i + 1) j) mu = .ok ⟨0, 0, 0⟩ ∧
      viscousFlux 1 (gy i j, gy i (j + 1)) (gx i j, gx i (j + 1)) mu = .ok ⟨0, 0, 0⟩ := by
  intro P gx gy
  have key : ∀ (a b c : Bool) (y d : ℝ), Plm.plmGradient a b c theta (y - d) y (y + d) =
      d * Plm.plmGradient true true true theta (-1) 0 1 := by
    intro a b c y d
    have := Plm.plm_scale a b c true true true theta (-1) 0 1 d y ht
    rw [← this]
    congr 1 <;> ring
  have k0 : ∀ (a b c : Bool) (y : ℝ), Plm.plmGradient a b c theta y y y = 0 := by
    intro a b c y
    have := key a b c y 0
    rw [sub_zero, add_zero, zero_mul] at this
    exact this
  have kx : ∀ i j, (gx i j).b = 0 ∧ (gx i j).c = omega * h * Plm.plmGradient true true true theta (-1) 0 1 / h := by
    intro i j
    refine ⟨?_, ?_⟩
    · show Plm.plmGradient _ _ _ theta _ _ _ / h = 0
      rw [k0, zero_div]
    · show Plm.plmGradient _ _ _ theta (v0 + omega * (x0 + ((i - 1 : ℤ) : ℝ) * h)) (v0 + omega * (x0 + (i : ℝ) * h))
        (v0 + omega * (x0 + ((i + 1 : ℤ) : ℝ) * h)) / h = _
      rw [show v0 + omega * (x0 + ((i - 1 : ℤ) : ℝ) * h) = v0 + omega * (x0 + (i : ℝ) * h) - omega * h by push_cast; ring,
        show v0 + omega * (x0 + ((i + 1 : ℤ) : ℝ) * h) = v0 + omega * (x0 + (i : ℝ) * h) + omega * h by push_cast; ring, key]
  have ky : ∀ i j, (gy i j).c = 0 ∧ (gy i j).b = -(omega * h * Plm.plmGradient true true true theta (-1) 0 1 / h) := by
    intro i j
    refine ⟨?_, ?_⟩
    · show Plm.plmGradient _ _ _ theta _ _ _ / h = 0
      rw [k0, zero_div]
    · show Plm.plmGradient _ _ _ theta (u0 - omega * (y0 + ((j - 1 : ℤ) : ℝ) * h)) (u0 - omega * (y0 + (j : ℝ) * h))
        (u0 - omega * (y0 + ((j + 1 : ℤ) : ℝ) * h)) / h = _
      rw [show u0 - omega * (y0 + ((j - 1 : ℤ) : ℝ) * h) = u0 - omega * (y0 + (j : ℝ) * h) - -(omega * h) by push_cast; ring,
        show u0 - omega * (y0 + ((j + 1 : ℤ) : ℝ) * h) = u0 - omega * (y0 + (j : ℝ) * h) + -(omega * h) by push_cast; ring, key]
      ring
  constructor
  · simp only [viscousFlux, (kx _ _).1, (kx _ _).2, (ky _ _).1, (ky _ _).2]
    congr 2 <;> ring
  · simp only [viscousFlux, (kx _ _).1, (kx _ _).2, (ky _ _).1, (ky _ _).2]
    congr 2 <;> ring

example : ∀ i j : ℤ,
    let P : ℤ → ℤ → Tri := fun i j => ⟨1, 3 - 2 * (0 + j * (1 / 10)), 4 + 2 * (1 + i * (1 / 10))⟩
    let gx := fun i j => gradient (fun _ => true) (3 / 2) (1 / 10) (P (i - 1) j) (P i j) (P (i + 1) j)
    let gy := fun i j => gradient (fun _ => true) (3 / 2) (1 / 10) (P i (j - 1)) (P i j) (P i (j + 1))
    viscousFlux 0 (gx i j, gx (i + 1) j) (gy i j, gy (i + 1) j) 5 = .ok ⟨0, 0, 0⟩ ∧
      viscousFlux 1 (gy i j, gy i (j + 1)) (gx i j, gx i (j + 1)) 5 = .ok ⟨0, 0, 0⟩ :=
  viscous_rigid (fun _ => true) (3 / 2) (1 / 10) 3 4 2 1 0 5 (by norm_num) (fun _ _ => 1)

/-- A shearing flow does feel viscosity. -/
example : viscousFlux 0 (⟨0, 0, 1⟩, ⟨0, 0, 1⟩) (⟨0, 0, 0⟩, ⟨0, 0, 0⟩) 2 = .ok ⟨0, 0, -2⟩ := by
  unfold viscousFlux
  norm_num

/-- **C75**, gravity comes from the potential: away from a body without softening, and everywhere with softening, the acceleration
of the field is minus the gradient of the potential. -/
theorem gravity_gradient (s : Params) (body : ℝ × ℝ) (mass : ℝ) :
    ∃ phi : ℝ × ℝ → ℝ, ∀ p : ℝ × ℝ, (s.softening ≠ 0 ∨ p ≠ body) →
      gravPhi s body mass p = .ok (phi p) ∧
      ∃ a, gravVdot s body mass p = .ok a ∧
        HasFDerivAt phi (-(a.1 • ContinuousLinearMap.fst ℝ ℝ ℝ + a.2 • ContinuousLinearMap.snd ℝ ℝ ℝ)) p := by
  let D : ℝ × ℝ → ℝ := fun p => (p.1 - body.1) * (p.1 - body.1) + (p.2 - body.2) * (p.2 - body.2) + s.softening * s.softening
  refine ⟨fun p => -1 * mass / D p ^ (1 / 2 : ℝ), fun p hp => ?_⟩
  have hD : 0 < D p := by
    have h1 := mul_self_nonneg (p.1 - body.1)
    have h2 := mul_self_nonneg (p.2 - body.2)
    have h3 := mul_self_nonneg s.softening
    rcases hp with h | h
    · have := mul_self_pos.mpr h
      simp only [D]; linarith
    · by_cases e : p.1 = body.1
      · have : p.2 - body.2 ≠ 0 := fun e2 => h (Prod.ext e (by linarith))
        have := mul_self_pos.mpr this
        simp only [D]; linarith
      · have := mul_self_pos.mpr (sub_ne_zero.mpr e)
        simp only [D]; linarith
  refine ⟨?_, (-(p.1 - body.1) / D p ^ (3 / 2 : ℝ) * 1 * mass, -(p.2 - body.2) / D p ^ (3 / 2 : ℝ) * 1 * mass), ?_, ?_⟩
  · unfold gravPhi
    exact if_neg hD.ne'
  · unfold gravVdot
    exact if_neg hD.ne'
  · have d1 : HasFDerivAt (fun p : ℝ × ℝ => p.1 - body.1) (ContinuousLinearMap.fst ℝ ℝ ℝ) p := hasFDerivAt_fst.sub_const _
    have d2 : HasFDerivAt (fun p : ℝ × ℝ => p.2 - body.2) (ContinuousLinearMap.snd ℝ ℝ ℝ) p := hasFDerivAt_snd.sub_const _
    have d3 := ((d1.mul d1).add (d2.mul d2)).add_const (s.softening * s.softening)
    have d4 : HasDerivAt (fun x : ℝ => -1 * mass * x ^ (-(1 / 2) : ℝ)) (-1 * mass * ((-(1 / 2)) * D p ^ (-(1 / 2) - 1 : ℝ))) (D p) :=
      (Real.hasDerivAt_rpow_const (Or.inl hD.ne')).const_mul _
    have d5 := d4.comp_hasFDerivAt p d3
    have ef : (fun p => -1 * mass / D p ^ (1 / 2 : ℝ)) =ᶠ[nhds p] ((fun x : ℝ => -1 * mass * x ^ (-(1 / 2) : ℝ)) ∘
        fun y : ℝ × ℝ => (y.1 - body.1) * (y.1 - body.1) + (y.2 - body.2) * (y.2 - body.2) + s.softening * s.softening) := by
      refine Filter.Eventually.of_forall fun q => ?_
      have hq : 0 ≤ D q := by
        have h1 := mul_self_nonneg (q.1 - body.1)
        have h2 := mul_self_nonneg (q.2 - body.2)
        have h3 := mul_self_nonneg s.softening
        simp only [D]; linarith
      show -1 * mass / D q ^ (1 / 2 : ℝ) = -1 * mass * D q ^ (-(1 / 2) : ℝ)
      rw [Real.rpow_neg hq, div_eq_mul_inv]
    refine (d5.congr_of_eventuallyEq ef).congr_fderiv ?_
    have e1 : D p ^ (-(1 / 2) - 1 : ℝ) = (D p ^ (3 / 2 : ℝ))⁻¹ := by
      rw [← Real.rpow_neg hD.le]; norm_num
    rw [e1]
    ext <;> simp <;> ring

/-- **C75**: without softening the acceleration points to the body and has the size mass over distance squared. -/
theorem gravity_newton (s : Params) (body : ℝ × ℝ) (mass : ℝ) (hs : s.softening = 0) (p : ℝ × ℝ) (hp : p ≠ body) :
    ∃ r > 0, r ^ 2 = (p.1 - body.1) ^ 2 + (p.2 - body.2) ^ 2 ∧
      gravVdot s body mass p = .ok (mass / r ^ 2 * ((body.1 - p.1) / r), mass / r ^ 2 * ((body.2 - p.2) / r)) := by
  have hD : 0 < (p.1 - body.1) * (p.1 - body.1) + (p.2 - body.2) * (p.2 - body.2) + s.softening * s.softening := by
    have h1 := mul_self_nonneg (p.1 - body.1)
    have h2 := mul_self_nonneg (p.2 - body.2)
    have h3 := mul_self_nonneg s.softening
    by_cases e : p.1 = body.1
    · have : p.2 - body.2 ≠ 0 := fun e2 => hp (Prod.ext e (by linarith))
      have := mul_self_pos.mpr this
      linarith
    · have := mul_self_pos.mpr (sub_ne_zero.mpr e)
      linarith
  refine ⟨_, Real.sqrt_pos.mpr hD, ?_, ?_⟩
  · rw [Real.sq_sqrt hD.le, hs]; ring
  · unfold gravVdot
    dsimp only
    rw [if_neg hD.ne']
    have e : ∀ x : ℝ, 0 < x → x ^ (3 / 2 : ℝ) = Real.sqrt x ^ 3 := by
      intro x hx
      rw [Real.sqrt_eq_rpow, ← Real.rpow_natCast, ← Real.rpow_mul hx.le]; norm_num
    rw [e _ hD]
    have hr := (Real.sqrt_pos.mpr hD).ne'
    congr 2
    · field_simp; ring
    · field_simp; ring

/-- The orbit data of the default configuration. -/
noncomputable def exParams : Params where
  sinkRate := 1
  softening := 1 / 20
  gstSuppr := 1
  domainRadius := 12
  sinkRadius := 1 / 20
  densityFloor := 0
  mach := 10
  alpha := 1 / 10
  alphaCutoff := 0
  nu := 0
  plmTheta := 9 / 5
  axisymmetric := false

example : ∃ phi : ℝ × ℝ → ℝ, gravPhi exParams (1, 2) 3 (1, 2) = .ok (phi (1, 2)) :=
  (gravity_gradient exParams (1, 2) 3).imp fun _ h => (h (1, 2) (Or.inl (by norm_num [exParams]))).1

example : ∃ r > 0, r ^ 2 = ((4 : ℝ) - 1) ^ 2 + (6 - 2) ^ 2 ∧
    gravVdot { exParams with softening := 0 } (1, 2) 3 (4, 6) = .ok (3 / r ^ 2 * ((1 - 4) / r), 3 / r ^ 2 * ((2 - 6) / r)) :=
  gravity_newton { exParams with softening := 0 } (1, 2) 3 rfl (4, 6) (by norm_num)

end Verif.Binary
