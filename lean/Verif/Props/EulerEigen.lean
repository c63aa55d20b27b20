import Verif.Props.Euler
import Mathlib.Analysis.Calculus.Deriv.Inv
import Mathlib.Analysis.Calculus.Deriv.Pow
import Mathlib.Analysis.Calculus.Deriv.Prod
import Mathlib.LinearAlgebra.Matrix.ToLin
import Mathlib.Topology.Algebra.Module.FiniteDimension
import Mathlib.Analysis.Calculus.LineDeriv.Basic
import Mathlib.Analysis.Calculus.FDeriv.Pi

/-!
# The eigensystem of the flux (C54)
-/

namespace Verif.Euler

open Geometry Matrices

theorem forall5 {p : Fin 5 → Prop} (h0 : p 0) (h1 : p 1) (h2 : p 2) (h3 : p 3) (h4 : p 4) : ∀ i, p i := by
  intro i
  match i with
  | 0 => exact h0
  | 1 => exact h1
  | 2 => exact h2
  | 3 => exact h3
  | 4 => exact h4

section
variable {α : Type} (a b c d e : α)
theorem at0 : ![a, b, c, d, e] 0 = a := rfl
theorem at1 : ![a, b, c, d, e] 1 = b := rfl
theorem at2 : ![a, b, c, d, e] 2 = c := rfl
theorem at3 : ![a, b, c, d, e] 3 = d := rfl
theorem at4 : ![a, b, c, d, e] 4 = e := rfl
end

theorem formulas_facts (P : Vec) (h : Physical P) (g : ℝ) (hg : 1 < g) :
    (formulas P g).m ≠ 0 ∧ (formulas P g).a2 ≠ 0 ∧ (formulas P g).a2 = (formulas P g).a ^ 2 ∧
      0 < (formulas P g).a ∧ (formulas P g).m = g - 1 := by
  have h2 : 0 < soundSpeedSquared P g := div_pos (mul_pos (by linarith) h.2) h.1
  refine ⟨?_, h2.ne', ?_, Real.sqrt_pos.2 h2, rfl⟩
  · simp only [formulas]; linarith
  · simp only [formulas]
    rw [Real.sq_sqrt h2.le]

/-- **C54**: left and right eigenvectors are inverse to each other. -/
theorem eigenvectors_inverse (P : Vec) (h : Physical P) (g : ℝ) (hg : 1 < g) :
    (formulas P g).left.product (formulas P g).right = Mat.identity 5 ∧
      (formulas P g).right.product (formulas P g).left = Mat.identity 5 := by
  obtain ⟨hm, ha2, ha, hpos, -⟩ := formulas_facts P h g hg
  have hH : (formulas P g).H = 1 / 2 * (formulas P g).V2 + (formulas P g).a2 / (formulas P g).m := rfl
  have hV : (formulas P g).V2 = (formulas P g).u ^ 2 + (formulas P g).v ^ 2 + (formulas P g).w ^ 2 := by
    simp only [formulas]; ring
  generalize formulas P g = s at *
  obtain ⟨g', m, u, v, w, u2, V2, a2, a, H⟩ := s
  simp only at *
  subst hH hV ha
  have ha0 : a ≠ 0 := hpos.ne'
  have hid : ∀ i j : Fin 5, (Mat.identity 5 : Mat 5 5 ℝ) i j =
      ![![1, 0, 0, 0, 0], ![0, 1, 0, 0, 0], ![0, 0, 1, 0, 0], ![0, 0, 0, 1, 0], ![0, 0, 0, 0, 1]] i j := by
    refine forall5 ?_ ?_ ?_ ?_ ?_ <;> refine forall5 ?_ ?_ ?_ ?_ ?_ <;>
      simp only [at0, at1, at2, at3, at4, Mat.identity] <;> first | rfl | exact if_pos rfl | exact if_neg (by decide)
  constructor <;> refine funext fun i => funext fun j => ?_ <;> rw [product_eq, Fin.sum_univ_five, hid] <;>
    revert i j <;> refine forall5 ?_ ?_ ?_ ?_ ?_ <;> refine forall5 ?_ ?_ ?_ ?_ ?_ <;>
    simp only [Formulas.left, Formulas.right, Mat.smul, at0, at1, at2, at3, at4] <;>
    (try field_simp) <;> (try ring1)

example : (formulas ![2, 1, 3, -1, 5] (5 / 3)).left.product (formulas ![2, 1, 3, -1, 5] (5 / 3)).right = Mat.identity 5 :=
  (eigenvectors_inverse _ ⟨show (0 : ℝ) < 2 by norm_num, show (0 : ℝ) < 5 by norm_num⟩ _ (by norm_num)).1

/-- **C54**: the flux Jacobian is diagonal in the eigenvectors, with the speeds `u - a`, `u`, `u`, `u`, `u + a`. -/
theorem jacobian_diagonal (P : Vec) (h : Physical P) (g : ℝ) (hg : 1 < g) :
    (formulas P g).fluxJacobian.product (formulas P g).right =
      (formulas P g).right.product (formulas P g).eigenvalues := by
  obtain ⟨hm, ha2, ha, hpos, hmg⟩ := formulas_facts P h g hg
  have hH : (formulas P g).H = 1 / 2 * (formulas P g).V2 + (formulas P g).a2 / (formulas P g).m := rfl
  have hV : (formulas P g).V2 = (formulas P g).u ^ 2 + (formulas P g).v ^ 2 + (formulas P g).w ^ 2 := by
    simp only [formulas]; ring
  have hu : (formulas P g).u2 = (formulas P g).u ^ 2 := by simp only [formulas]; ring
  have hg' : (formulas P g).g = (formulas P g).m + 1 := by simp only [formulas]; ring
  generalize formulas P g = s at *
  obtain ⟨g', m, u, v, w, u2, V2, a2, a, H⟩ := s
  simp only at *
  subst hH hV ha hu hg'
  refine funext fun i => funext fun j => ?_
  rw [Formulas.eigenvalues, (product_identity (n := 5) (m := 5) (k := 1) _ (fun _ => 0) _).2.2.2.2.2, product_eq, Fin.sum_univ_five]
  revert i j
  refine forall5 ?_ ?_ ?_ ?_ ?_ <;> refine forall5 ?_ ?_ ?_ ?_ ?_ <;>
    simp only [Formulas.fluxJacobian, Formulas.right, at0, at1, at2, at3, at4] <;> (try field_simp) <;> (try ring1)

example : (formulas ![2, 1, 3, -1, 5] (5 / 3)).fluxJacobian.product (formulas ![2, 1, 3, -1, 5] (5 / 3)).right =
    (formulas ![2, 1, 3, -1, 5] (5 / 3)).right.product (formulas ![2, 1, 3, -1, 5] (5 / 3)).eigenvalues :=
  jacobian_diagonal _ ⟨show (0 : ℝ) < 2 by norm_num, show (0 : ℝ) < 5 by norm_num⟩ _ (by norm_num)

/-- The flux along the first axis as a function of the conserved densities. -/
noncomputable def fluxOfConserved (g : ℝ) (U : Vec) : Vec := flux (recover U g 0) ⟨1, 0, 0⟩ g

theorem fluxOfConserved_eq (g : ℝ) (hg : 1 < g) (U : Vec) (h0 : U 0 ≠ 0) : fluxOfConserved g U =
    ![U 1, U 1 ^ 2 / U 0 + (U 4 - 1 / 2 * (U 1 ^ 2 + U 2 ^ 2 + U 3 ^ 2) / U 0) * (g - 1),
      U 1 * U 2 / U 0, U 1 * U 3 / U 0,
      U 1 / U 0 * (U 4 + (U 4 - 1 / 2 * (U 1 ^ 2 + U 2 ^ 2 + U 3 ^ 2) / U 0) * (g - 1))] := by
  have hm : g - 1 ≠ 0 := by linarith
  have hf : ∀ p d, floored p d 0 = p := fun p d => if_neg (by simp)
  refine funext (forall5 ?_ ?_ ?_ ?_ ?_) <;>
    simp only [fluxOfConserved, flux, fluxWith, recover, toConserved, velocityAlong, UnitVec.project,
      velocitySquared, hf, at0, at1, at2, at3, at4] <;>
    field_simp <;> ring

theorem fluxOfConserved_line (g : ℝ) (hg : 1 < g) (U V : Vec) (h0 : 0 < U 0) (i : Fin 5) :
    HasDerivAt (fun t : ℝ => fluxOfConserved g (U + t • V) i)
      (∑ j, (formulas (recover U g 0) g).fluxJacobian i j * V j) 0 := by
  have hm : g - 1 ≠ 0 := by linarith
  have hf : ∀ p d, floored p d 0 = p := fun p d => if_neg (by simp)
  have hx : ∀ k, HasDerivAt (fun t : ℝ => U k + t * V k) (V k) 0 := fun k => by
    simpa using ((hasDerivAt_id (0 : ℝ)).mul_const (V k)).const_add (U k)
  have hne : ∀ᶠ t : ℝ in nhds 0, U 0 + t * V 0 ≠ 0 := by
    refine (hx 0).continuousAt.eventually_ne ?_
    simpa using h0.ne'
  have hz : U 0 + 0 * V 0 ≠ 0 := by simpa using h0.ne'
  have hp := ((hx 4).sub (((((hx 1).pow 2).add ((hx 2).pow 2)).add ((hx 3).pow 2)).const_mul (1 / 2) |>.div (hx 0) hz)).mul_const (g - 1)
  have h0' := h0.ne'
  rw [Fin.sum_univ_five]
  revert i
  refine forall5 ?_ ?_ ?_ ?_ ?_
  · refine HasDerivAt.congr_of_eventuallyEq (HasDerivAt.congr_deriv (hx 1) ?_) (hne.mono fun t ht => ?_)
    · simp only [Formulas.fluxJacobian, at0, at1, at2, at3, at4]; ring
    · beta_reduce
      rw [fluxOfConserved_eq g hg _ (by simpa using ht), at0]; simp
  · refine HasDerivAt.congr_of_eventuallyEq (HasDerivAt.congr_deriv ((((hx 1).pow 2).div (hx 0) hz).add hp) ?_)
      (hne.mono fun t ht => ?_)
    · simp only [Formulas.fluxJacobian, formulas, soundSpeedSquared, recover, hf, at0, at1, at2, at3, at4]
      simp
      field_simp
      ring
    · beta_reduce
      rw [fluxOfConserved_eq g hg _ (by simpa using ht), at1]; simp
  · refine HasDerivAt.congr_of_eventuallyEq (HasDerivAt.congr_deriv (((hx 1).mul (hx 2)).div (hx 0) hz) ?_)
      (hne.mono fun t ht => ?_)
    · simp only [Formulas.fluxJacobian, formulas, soundSpeedSquared, recover, hf, at0, at1, at2, at3, at4]
      simp
      field_simp
      ring
    · beta_reduce
      rw [fluxOfConserved_eq g hg _ (by simpa using ht), at2]; simp
  · refine HasDerivAt.congr_of_eventuallyEq (HasDerivAt.congr_deriv (((hx 1).mul (hx 3)).div (hx 0) hz) ?_)
      (hne.mono fun t ht => ?_)
    · simp only [Formulas.fluxJacobian, formulas, soundSpeedSquared, recover, hf, at0, at1, at2, at3, at4]
      simp
      field_simp
      ring
    · beta_reduce
      rw [fluxOfConserved_eq g hg _ (by simpa using ht), at3]; simp
  · refine HasDerivAt.congr_of_eventuallyEq
      (HasDerivAt.congr_deriv (((hx 1).div (hx 0) hz).mul ((hx 4).add hp)) ?_) (hne.mono fun t ht => ?_)
    · simp only [Formulas.fluxJacobian, formulas, soundSpeedSquared, recover, hf, at0, at1, at2, at3, at4]
      simp
      field_simp
      ring
    · beta_reduce
      rw [fluxOfConserved_eq g hg _ (by simpa using ht), at4]; simp

/-- **C54**: the flux Jacobian is the derivative of the flux with respect to the conserved densities. -/
theorem jacobian_derivative (g : ℝ) (hg : 1 < g) (U : Vec) (h0 : 0 < U 0) :
    HasFDerivAt (fluxOfConserved g)
      (LinearMap.toContinuousLinearMap
        (Matrix.mulVecLin (Matrix.of (formulas (recover U g 0) g).fluxJacobian))) U := by
  have hd : DifferentiableAt ℝ (fluxOfConserved g) U := by
    have hne : ∀ᶠ V : Vec in nhds U, V 0 ≠ 0 :=
      (continuous_apply (0 : Fin 5)).continuousAt.eventually_ne h0.ne'
    have h0' := h0.ne'
    refine DifferentiableAt.congr_of_eventuallyEq ?_ (hne.mono fun V hV => fluxOfConserved_eq g hg V hV)
    rw [differentiableAt_pi]
    refine forall5 ?_ ?_ ?_ ?_ ?_ <;> simp only [at0, at1, at2, at3, at4, div_eq_mul_inv] <;>
      fun_prop (disch := assumption)
  have hl : ∀ V, fderiv ℝ (fluxOfConserved g) U V =
      Matrix.mulVec (Matrix.of (formulas (recover U g 0) g).fluxJacobian) V := by
    intro V
    have h1 := hasDerivAt_pi.1 ((hd.hasFDerivAt.hasLineDerivAt V) : HasDerivAt (fun t : ℝ => fluxOfConserved g (U + t • V)) _ 0)
    funext i
    exact (h1 i).unique (fluxOfConserved_line g hg U V h0 i)
  convert hd.hasFDerivAt using 1
  ext1 V
  exact (hl V).symm

/-- A gas in motion. -/
example : Physical ![2, 1, 3, -1, 5] ∧ (1 : ℝ) < 5 / 3 := 
  ⟨⟨show (0 : ℝ) < 2 by norm_num, show (0 : ℝ) < 5 by norm_num⟩, by norm_num⟩

end Verif.Euler
