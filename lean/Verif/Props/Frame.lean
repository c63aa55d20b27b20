import Verif.Spec.Frame
import Mathlib.Tactic.LinearCombination
import Mathlib.Tactic.FieldSimp
import Mathlib.Tactic.Positivity
import Mathlib.Tactic.FinCases
import Mathlib.Tactic.Linarith

/-!
# C126: gas dynamics does not depend on the axes and the units
-/

namespace Verif.Frame
open Verif Geometry

/-- Scalar products are the same in all axes. -/
theorem Axes.dot (Q : Axes) (x y z a b c : ℝ) :
    Q.turn x y z 0 * Q.turn a b c 0 + Q.turn x y z 1 * Q.turn a b c 1 + Q.turn x y z 2 * Q.turn a b c 2 = x * a + y * b + z * c := by
  have h := Q.orthogonal
  have h00 := h 0 0; have h01 := h 0 1; have h02 := h 0 2; have h11 := h 1 1; have h12 := h 1 2; have h22 := h 2 2
  simp only [if_true, Fin.isValue, zero_ne_one, if_false, reduceIte, Fin.reduceEq] at h00 h01 h02 h11 h12 h22
  unfold Axes.turn
  linear_combination (x * a) * h00 + (x * b + y * a) * h01 + (x * c + z * a) * h02 + (y * b) * h11 + (y * c + z * b) * h12 + (z * c) * h22

theorem PlaneAxes.dot (Q : PlaneAxes) (x y a b : ℝ) : Q.turn x y 0 * Q.turn a b 0 + Q.turn x y 1 * Q.turn a b 1 = x * a + y * b := by
  have h := Q.orthogonal
  have h00 := h 0 0; have h01 := h 0 1; have h11 := h 1 1
  simp only [if_true, Fin.isValue, zero_ne_one, if_false, reduceIte] at h00 h01 h11
  unfold PlaneAxes.turn
  linear_combination (x * a) * h00 + (x * b + y * a) * h01 + (y * b) * h11

section Components
variable (Q : Axes) (P : Fin 5 → ℝ)
theorem state0 : Q.state P 0 = P 0 := rfl
theorem state1 : Q.state P 1 = Q.turn (P 1) (P 2) (P 3) 0 := rfl
theorem state2 : Q.state P 2 = Q.turn (P 1) (P 2) (P 3) 1 := rfl
theorem state3 : Q.state P 3 = Q.turn (P 1) (P 2) (P 3) 2 := rfl
theorem state4 : Q.state P 4 = P 4 := rfl
end Components

theorem vec_ext {A B : Fin 5 → ℝ} (h0 : A 0 = B 0) (h1 : A 1 = B 1) (h2 : A 2 = B 2) (h3 : A 3 = B 3) (h4 : A 4 = B 4) : A = B := by
  funext i; fin_cases i <;> assumption

/-- Turning is linear. -/
theorem Axes.state_comb (Q : Axes) (A B C D : Fin 5 → ℝ) (a b d : ℝ) :
    Q.state (fun i => (A i * a - B i * b - (C i - D i) * a * b) / d) =
      fun i => (Q.state A i * a - Q.state B i * b - (Q.state C i - Q.state D i) * a * b) / d := by
  refine vec_ext ?_ ?_ ?_ ?_ ?_
  · simp only [state0]
  · simp only [state1, Axes.turn]; ring
  · simp only [state2, Axes.turn]; ring
  · simp only [state3, Axes.turn]; ring
  · simp only [state4]

/-! ### Turned and mirrored axes -/

theorem euler_velocitySquared (Q : Axes) (P : Fin 5 → ℝ) : Euler.velocitySquared (Q.state P) = Euler.velocitySquared P :=
  Q.dot _ _ _ _ _ _

theorem project_turn (Q : Axes) (n : UnitVec ℝ) (x y z : ℝ) : (Q.normal n).project (Q.turn x y z 0) (Q.turn x y z 1) (Q.turn x y z 2) = n.project x y z :=
  Q.dot _ _ _ _ _ _

theorem euler_conserved (Q : Axes) (P : Fin 5 → ℝ) (g : ℝ) : Euler.toConserved (Q.state P) g = Q.state (Euler.toConserved P g) := by
  refine vec_ext rfl ?_ ?_ ?_ ?_
  · show P 0 * (Q.q 0 0 * P 1 + Q.q 0 1 * P 2 + Q.q 0 2 * P 3) = Q.q 0 0 * (P 0 * P 1) + Q.q 0 1 * (P 0 * P 2) + Q.q 0 2 * (P 0 * P 3); ring
  · show P 0 * (Q.q 1 0 * P 1 + Q.q 1 1 * P 2 + Q.q 1 2 * P 3) = Q.q 1 0 * (P 0 * P 1) + Q.q 1 1 * (P 0 * P 2) + Q.q 1 2 * (P 0 * P 3); ring
  · show P 0 * (Q.q 2 0 * P 1 + Q.q 2 1 * P 2 + Q.q 2 2 * P 3) = Q.q 2 0 * (P 0 * P 1) + Q.q 2 1 * (P 0 * P 2) + Q.q 2 2 * (P 0 * P 3); ring
  · show 1 / 2 * P 0 * Euler.velocitySquared (Q.state P) + P 4 / (g - 1) = 1 / 2 * P 0 * Euler.velocitySquared P + P 4 / (g - 1)
    rw [euler_velocitySquared]

theorem flux_turn (Q : Axes) (v p : ℝ) (U : Fin 5 → ℝ) (n : UnitVec ℝ) :
    (![v * Q.state U 0, v * Q.state U 1 + p * (Q.normal n).n1, v * Q.state U 2 + p * (Q.normal n).n2, v * Q.state U 3 + p * (Q.normal n).n3,
      v * Q.state U 4 + p * v] : Fin 5 → ℝ) = Q.state ![v * U 0, v * U 1 + p * n.n1, v * U 2 + p * n.n2, v * U 3 + p * n.n3, v * U 4 + p * v] := by
  refine vec_ext rfl ?_ ?_ ?_ rfl
  · show v * (Q.q 0 0 * U 1 + Q.q 0 1 * U 2 + Q.q 0 2 * U 3) + p * (Q.q 0 0 * n.n1 + Q.q 0 1 * n.n2 + Q.q 0 2 * n.n3) =
      Q.q 0 0 * (v * U 1 + p * n.n1) + Q.q 0 1 * (v * U 2 + p * n.n2) + Q.q 0 2 * (v * U 3 + p * n.n3)
    ring
  · show v * (Q.q 1 0 * U 1 + Q.q 1 1 * U 2 + Q.q 1 2 * U 3) + p * (Q.q 1 0 * n.n1 + Q.q 1 1 * n.n2 + Q.q 1 2 * n.n3) =
      Q.q 1 0 * (v * U 1 + p * n.n1) + Q.q 1 1 * (v * U 2 + p * n.n2) + Q.q 1 2 * (v * U 3 + p * n.n3)
    ring
  · show v * (Q.q 2 0 * U 1 + Q.q 2 1 * U 2 + Q.q 2 2 * U 3) + p * (Q.q 2 0 * n.n1 + Q.q 2 1 * n.n2 + Q.q 2 2 * n.n3) =
      Q.q 2 0 * (v * U 1 + p * n.n1) + Q.q 2 1 * (v * U 2 + p * n.n2) + Q.q 2 2 * (v * U 3 + p * n.n3)
    ring

theorem euler_along (Q : Axes) (P : Fin 5 → ℝ) (n : UnitVec ℝ) : Euler.velocityAlong (Q.state P) (Q.normal n) = Euler.velocityAlong P n :=
  project_turn Q n _ _ _

theorem euler_fluxWith (Q : Axes) (P : Fin 5 → ℝ) (n : UnitVec ℝ) (U : Fin 5 → ℝ) :
    Euler.fluxWith (Q.state P) (Q.normal n) (Q.state U) = Q.state (Euler.fluxWith P n U) := by
  unfold Euler.fluxWith
  simp only [euler_along]
  exact flux_turn Q _ _ U n

theorem euler_wavespeeds (Q : Axes) (P : Fin 5 → ℝ) (n : UnitVec ℝ) (g : ℝ) :
    Euler.wavespeeds (Q.state P) (Q.normal n) g = Euler.wavespeeds P n g := by
  unfold Euler.wavespeeds
  simp only [euler_along]
  rfl

/-- **C126**, gas dynamics in turned or mirrored axes: conserved quantities, fluxes, speeds of waves, the fluxes between two states and recovery are the same
numbers and vectors, whatever the axes. -/
theorem euler_axes (Q : Axes) (P P' U : Fin 5 → ℝ) (n : UnitVec ℝ) (g T : ℝ) :
    Euler.toConserved (Q.state P) g = Q.state (Euler.toConserved P g) ∧
    Euler.flux (Q.state P) (Q.normal n) g = Q.state (Euler.flux P n g) ∧
    Euler.wavespeeds (Q.state P) (Q.normal n) g = Euler.wavespeeds P n g ∧
    Euler.hlle (Q.state P) (Q.state P') (Q.normal n) g = Q.state (Euler.hlle P P' n g) ∧
    Euler.recover (Q.state U) g T = Q.state (Euler.recover U g T) := by
  refine ⟨euler_conserved Q P g, ?_, euler_wavespeeds Q P n g, ?_, ?_⟩
  · unfold Euler.flux
    rw [euler_conserved, euler_fluxWith]
  · unfold Euler.hlle
    simp only [euler_conserved, euler_fluxWith, euler_wavespeeds]
    exact (Q.state_comb _ _ _ _ _ _ _).symm
  · have hs : Q.state U 1 * Q.state U 1 + Q.state U 2 * Q.state U 2 + Q.state U 3 * Q.state U 3 = U 1 * U 1 + U 2 * U 2 + U 3 * U 3 := Q.dot _ _ _ _ _ _
    unfold Euler.recover
    simp only [hs]
    refine vec_ext rfl ?_ ?_ ?_ rfl
    · show (Q.q 0 0 * U 1 + Q.q 0 1 * U 2 + Q.q 0 2 * U 3) / U 0 = Q.q 0 0 * (U 1 / U 0) + Q.q 0 1 * (U 2 / U 0) + Q.q 0 2 * (U 3 / U 0); ring
    · show (Q.q 1 0 * U 1 + Q.q 1 1 * U 2 + Q.q 1 2 * U 3) / U 0 = Q.q 1 0 * (U 1 / U 0) + Q.q 1 1 * (U 2 / U 0) + Q.q 1 2 * (U 3 / U 0); ring
    · show (Q.q 2 0 * U 1 + Q.q 2 1 * U 2 + Q.q 2 2 * U 3) / U 0 = Q.q 2 0 * (U 1 / U 0) + Q.q 2 1 * (U 2 / U 0) + Q.q 2 2 * (U 3 / U 0); ring

theorem srhd_gammaBetaSquared (Q : Axes) (P : Fin 5 → ℝ) : Srhd.gammaBetaSquared (Q.state P) = Srhd.gammaBetaSquared P :=
  Q.dot _ _ _ _ _ _

theorem srhd_lorentz (Q : Axes) (P : Fin 5 → ℝ) : Srhd.lorentzFactor (Q.state P) = Srhd.lorentzFactor P := by
  unfold Srhd.lorentzFactor; rw [srhd_gammaBetaSquared]

theorem srhd_along (Q : Axes) (P : Fin 5 → ℝ) (n : UnitVec ℝ) : Srhd.betaAlong (Q.state P) (Q.normal n) = Srhd.betaAlong P n := by
  unfold Srhd.betaAlong; rw [srhd_lorentz]
  exact congrArg (· / _) (project_turn Q n _ _ _)

theorem srhd_conserved (Q : Axes) (P : Fin 5 → ℝ) (g : ℝ) : Srhd.toConserved (Q.state P) g = Q.state (Srhd.toConserved P g) := by
  have hh : Srhd.specificEnthalpy (Q.state P) g = Srhd.specificEnthalpy P g := rfl
  unfold Srhd.toConserved
  simp only [srhd_lorentz, hh]
  generalize Srhd.lorentzFactor P = W
  generalize Srhd.specificEnthalpy P g = h
  refine vec_ext rfl ?_ ?_ ?_ rfl
  · show P 0 * W * (Q.q 0 0 * P 1 + Q.q 0 1 * P 2 + Q.q 0 2 * P 3) * h = Q.q 0 0 * (P 0 * W * P 1 * h) + Q.q 0 1 * (P 0 * W * P 2 * h) + Q.q 0 2 * (P 0 * W * P 3 * h); ring
  · show P 0 * W * (Q.q 1 0 * P 1 + Q.q 1 1 * P 2 + Q.q 1 2 * P 3) * h = Q.q 1 0 * (P 0 * W * P 1 * h) + Q.q 1 1 * (P 0 * W * P 2 * h) + Q.q 1 2 * (P 0 * W * P 3 * h); ring
  · show P 0 * W * (Q.q 2 0 * P 1 + Q.q 2 1 * P 2 + Q.q 2 2 * P 3) * h = Q.q 2 0 * (P 0 * W * P 1 * h) + Q.q 2 1 * (P 0 * W * P 2 * h) + Q.q 2 2 * (P 0 * W * P 3 * h); ring

theorem srhd_fluxWith (Q : Axes) (P : Fin 5 → ℝ) (n : UnitVec ℝ) (U : Fin 5 → ℝ) :
    Srhd.fluxWith (Q.state P) (Q.normal n) (Q.state U) = Q.state (Srhd.fluxWith P n U) := by
  unfold Srhd.fluxWith
  simp only [srhd_along]
  exact flux_turn Q _ _ U n

theorem srhd_wavespeeds (Q : Axes) (P : Fin 5 → ℝ) (n : UnitVec ℝ) (g : ℝ) :
    Srhd.wavespeeds (Q.state P) (Q.normal n) g = Srhd.wavespeeds P n g := by
  unfold Srhd.wavespeeds
  simp only [srhd_along, srhd_gammaBetaSquared]
  rfl

theorem srhd_loop (Q : Axes) (U : Fin 5 → ℝ) (g : ℝ) (n : ℕ) (p : ℝ) : Srhd.loop (Q.state U) g n p = Srhd.loop U g n p := by
  have hm : Srhd.momentumSquared (Q.state U) = Srhd.momentumSquared U := Q.dot _ _ _ _ _ _
  have hv : ∀ p, Srhd.guessV2 (Q.state U) p = Srhd.guessV2 U p := fun p => by unfold Srhd.guessV2; rw [hm]; rfl
  have hw : ∀ p, Srhd.guessW (Q.state U) p = Srhd.guessW U p := fun p => by unfold Srhd.guessW; rw [hv]
  have he : ∀ p, Srhd.guessE (Q.state U) p = Srhd.guessE U p := fun p => by unfold Srhd.guessE; rw [hv, hw]; rfl
  have hd : ∀ p, Srhd.guessDh (Q.state U) p = Srhd.guessDh U p := fun p => by unfold Srhd.guessDh; rw [he, hw]; rfl
  have hf : ∀ p, Srhd.guessF (Q.state U) g p = Srhd.guessF U g p := fun p => by unfold Srhd.guessF; rw [he, hw]; rfl
  have hg : ∀ p, Srhd.guessG (Q.state U) g p = Srhd.guessG U g p := fun p => by unfold Srhd.guessG; rw [hv, hd]
  induction n generalizing p with
  | zero => rfl
  | succ n ih => unfold Srhd.loop; simp only [hd, hg, hf, hw, ih, state0, state4]

theorem srhd_finish (Q : Axes) (U : Fin 5 → ℝ) (T : ℝ) (found : Bool) (p W : ℝ) :
    Srhd.finish (Q.state U) T found p W = (Srhd.finish U T found p W).map Q.state := by
  have hP : ∀ s p' : ℝ, (![U 0 / W, W * Q.state U 1 / s, W * Q.state U 2 / s, W * Q.state U 3 / s, p'] : Fin 5 → ℝ) =
      Q.state ![U 0 / W, W * U 1 / s, W * U 2 / s, W * U 3 / s, p'] := by
    intro s p'
    refine vec_ext rfl ?_ ?_ ?_ rfl
    · show W * (Q.q 0 0 * U 1 + Q.q 0 1 * U 2 + Q.q 0 2 * U 3) / s = Q.q 0 0 * (W * U 1 / s) + Q.q 0 1 * (W * U 2 / s) + Q.q 0 2 * (W * U 3 / s); ring
    · show W * (Q.q 1 0 * U 1 + Q.q 1 1 * U 2 + Q.q 1 2 * U 3) / s = Q.q 1 0 * (W * U 1 / s) + Q.q 1 1 * (W * U 2 / s) + Q.q 1 2 * (W * U 3 / s); ring
    · show W * (Q.q 2 0 * U 1 + Q.q 2 1 * U 2 + Q.q 2 2 * U 3) / s = Q.q 2 0 * (W * U 1 / s) + Q.q 2 1 * (W * U 2 / s) + Q.q 2 2 * (W * U 3 / s); ring
  have h0 : Q.state U 0 = U 0 := rfl
  have h4 : Q.state U 4 = U 4 := rfl
  generalize Q.state U = V at *
  unfold Srhd.finish
  dsimp only
  rw [h0, h4]
  generalize Srhd.floored p (U 0 / W) T = p'
  generalize U 4 + U 0 + p' = s
  have e0 : (![U 0 / W, W * V 1 / s, W * V 2 / s, W * V 3 / s, p'] : Fin 5 → ℝ) 0 = U 0 / W := rfl
  have e4 : (![U 0 / W, W * V 1 / s, W * V 2 / s, W * V 3 / s, p'] : Fin 5 → ℝ) 4 = p' := rfl
  have f0 : (![U 0 / W, W * U 1 / s, W * U 2 / s, W * U 3 / s, p'] : Fin 5 → ℝ) 0 = U 0 / W := rfl
  have f4 : (![U 0 / W, W * U 1 / s, W * U 2 / s, W * U 3 / s, p'] : Fin 5 → ℝ) 4 = p' := rfl
  rw [e0, e4, f0, f4, hP]
  split_ifs <;> rfl

/-- A turn about an oblique axis with a reflection: the hypotheses on axes are met by more than the identity. -/
noncomputable def obliqueAxes : Axes where
  q := ![![2 / 3, -1 / 3, 2 / 3], ![2 / 3, 2 / 3, -1 / 3], ![1 / 3, -2 / 3, -2 / 3]]
  orthogonal := by
    intro i j
    fin_cases i <;> fin_cases j <;> norm_num [Matrix.cons_val_two, Matrix.tail_cons, Matrix.head_cons]

example : Euler.toConserved (obliqueAxes.state ![1, 3, 0, 0, 1]) (5 / 3) = obliqueAxes.state (Euler.toConserved ![1, 3, 0, 0, 1] (5 / 3)) ∧
    obliqueAxes.state ![1, 3, 0, 0, 1] = ![1, 2, 2, 1, 1] := by
  refine ⟨(euler_axes obliqueAxes _ 0 0 ⟨1, 0, 0⟩ _ 0).1, vec_ext rfl ?_ ?_ ?_ rfl⟩
  · show 2 / 3 * (3 : ℝ) + -1 / 3 * 0 + 2 / 3 * 0 = 2; norm_num
  · show 2 / 3 * (3 : ℝ) + 2 / 3 * 0 + -1 / 3 * 0 = 2; norm_num
  · show 1 / 3 * (3 : ℝ) + -2 / 3 * 0 + -2 / 3 * 0 = 1; norm_num

/-- **C126**, relativistic gas dynamics in turned or mirrored axes. -/
theorem srhd_axes (Q : Axes) (P P' U : Fin 5 → ℝ) (n : UnitVec ℝ) (g T : ℝ) :
    Srhd.toConserved (Q.state P) g = Q.state (Srhd.toConserved P g) ∧
    Srhd.flux (Q.state P) (Q.normal n) g = Q.state (Srhd.flux P n g) ∧
    Srhd.wavespeeds (Q.state P) (Q.normal n) g = Srhd.wavespeeds P n g ∧
    Srhd.hlle (Q.state P) (Q.state P') (Q.normal n) g = Q.state (Srhd.hlle P P' n g) ∧
    Srhd.recover (Q.state U) g T = (Srhd.recover U g T).map Q.state := by
  refine ⟨srhd_conserved Q P g, ?_, srhd_wavespeeds Q P n g, ?_, ?_⟩
  · unfold Srhd.flux
    rw [srhd_conserved, srhd_fluxWith]
  · unfold Srhd.hlle
    simp only [srhd_conserved, srhd_fluxWith, srhd_wavespeeds]
    exact (Q.state_comb _ _ _ _ _ _ _).symm
  · unfold Srhd.recover
    rw [srhd_loop]
    cases hl : Srhd.loop U g 50 0 with
    | throws e => rfl
    | ub => rfl
    | diverges => rfl
    | ok r =>
      obtain ⟨found, p, W⟩ := r
      dsimp only
      exact srhd_finish Q U T found p W

example : ∃ Q : Axes, Q.state ![1, 3, 0, 0, 1] ≠ ![1, 3, 0, 0, 1] ∧ ∀ T : ℝ,
    Srhd.recover (Q.state ![3, 4, 0, 0, 5]) (4 / 3) T = (Srhd.recover ![3, 4, 0, 0, 5] (4 / 3) T).map Q.state := by
  refine ⟨obliqueAxes, fun h => ?_, fun T => (srhd_axes obliqueAxes 0 0 _ ⟨1, 0, 0⟩ _ T).2.2.2.2⟩
  have h1 : 2 / 3 * (3 : ℝ) + -1 / 3 * 0 + 2 / 3 * 0 = 3 := congrFun h 1
  norm_num at h1

theorem plane_along (Q : PlaneAxes) (P : Iso2d.Tri) (n : UnitVec ℝ) : Iso2d.velocityAlong (Q.state P) (Q.normal n) = Iso2d.velocityAlong P n := by
  have h := Q.dot P.b P.c n.n1 n.n2
  show Q.turn P.b P.c 0 * Q.turn n.n1 n.n2 0 + Q.turn P.b P.c 1 * Q.turn n.n1 n.n2 1 + 0 * n.n3 = P.b * n.n1 + P.c * n.n2 + 0 * n.n3
  linarith

theorem plane_flux (Q : PlaneAxes) (P : Iso2d.Tri) (n : UnitVec ℝ) (c : ℝ) :
    Iso2d.flux (Q.state P) (Q.normal n) c = Q.state (Iso2d.flux P n c) := by
  unfold Iso2d.flux
  simp only [plane_along]
  ext
  · rfl
  · simp only [PlaneAxes.state, PlaneAxes.normal, PlaneAxes.turn, Iso2d.gasPressure]; ring
  · simp only [PlaneAxes.state, PlaneAxes.normal, PlaneAxes.turn, Iso2d.gasPressure]; ring

theorem plane_conserved (Q : PlaneAxes) (P : Iso2d.Tri) : Iso2d.toConserved (Q.state P) = Q.state (Iso2d.toConserved P) := by
  ext
  · rfl
  · simp only [Iso2d.toConserved, PlaneAxes.state, PlaneAxes.turn]; ring
  · simp only [Iso2d.toConserved, PlaneAxes.state, PlaneAxes.turn]; ring

theorem plane_wavespeeds (Q : PlaneAxes) (P : Iso2d.Tri) (n : UnitVec ℝ) (c : ℝ) :
    Iso2d.wavespeeds (Q.state P) (Q.normal n) c = Iso2d.wavespeeds P n c := by
  unfold Iso2d.wavespeeds
  simp only [plane_along]

/-- The variables of the solver in other axes. -/
noncomputable def PlaneAxes.hllc (Q : PlaneAxes) (h : Iso2d.Hllc) : Iso2d.Hllc :=
  { h with n := Q.normal h.n, Pl := Q.state h.Pl, Pr := Q.state h.Pr
           perpL1 := Q.turn h.perpL1 h.perpL2 0, perpL2 := Q.turn h.perpL1 h.perpL2 1
           perpR1 := Q.turn h.perpR1 h.perpR2 0, perpR2 := Q.turn h.perpR1 h.perpR2 1 }

theorem plane_hllcVariables (Q : PlaneAxes) (P P' : Iso2d.Tri) (c c' : ℝ) (n : UnitVec ℝ) :
    Iso2d.hllcVariables (Q.state P) (Q.state P') c c' (Q.normal n) = Q.hllc (Iso2d.hllcVariables P P' c c' n) := by
  unfold Iso2d.hllcVariables PlaneAxes.hllc
  simp only [plane_along, Iso2d.Hllc.mk.injEq]
  refine ⟨trivial, trivial, trivial, ?_, ?_, ?_, ?_, trivial, trivial, trivial, trivial, rfl, rfl, ?_, ?_, ?_⟩ <;>
    first
    | rfl
    | (simp only [PlaneAxes.state, PlaneAxes.normal, PlaneAxes.turn]; ring)

theorem plane_interface (Q : PlaneAxes) (h : Iso2d.Hllc) : (Q.hllc h).interfaceFlux = h.interfaceFlux.map Q.state := by
  have hl : (Q.hllc h).Fl = Q.state h.Fl := plane_flux Q _ _ _
  have hr : (Q.hllc h).Fr = Q.state h.Fr := plane_flux Q _ _ _
  have h1 : (Q.hllc h).Fl.add (((Q.hllc h).UlStar.sub (Q.hllc h).Ul).mul (Q.hllc h).sl) = Q.state (h.Fl.add ((h.UlStar.sub h.Ul).mul h.sl)) := by
    rw [hl]
    ext
    · rfl
    · simp only [Iso2d.Tri.add, Iso2d.Tri.sub, Iso2d.Tri.mul, Iso2d.Hllc.UlStar, Iso2d.Hllc.Ul, PlaneAxes.hllc, PlaneAxes.state, PlaneAxes.turn, PlaneAxes.normal,
        Iso2d.toConserved]; ring
    · simp only [Iso2d.Tri.add, Iso2d.Tri.sub, Iso2d.Tri.mul, Iso2d.Hllc.UlStar, Iso2d.Hllc.Ul, PlaneAxes.hllc, PlaneAxes.state, PlaneAxes.turn, PlaneAxes.normal,
        Iso2d.toConserved]; ring
  have h2 : (Q.hllc h).Fr.add (((Q.hllc h).UrStar.sub (Q.hllc h).Ur).mul (Q.hllc h).sr) = Q.state (h.Fr.add ((h.UrStar.sub h.Ur).mul h.sr)) := by
    rw [hr]
    ext
    · rfl
    · simp only [Iso2d.Tri.add, Iso2d.Tri.sub, Iso2d.Tri.mul, Iso2d.Hllc.UrStar, Iso2d.Hllc.Ur, PlaneAxes.hllc, PlaneAxes.state, PlaneAxes.turn, PlaneAxes.normal,
        Iso2d.toConserved]; ring
    · simp only [Iso2d.Tri.add, Iso2d.Tri.sub, Iso2d.Tri.mul, Iso2d.Hllc.UrStar, Iso2d.Hllc.Ur, PlaneAxes.hllc, PlaneAxes.state, PlaneAxes.turn, PlaneAxes.normal,
        Iso2d.toConserved]; ring
  unfold Iso2d.Hllc.interfaceFlux
  rw [h1, h2, hl, hr]
  show (if 0 ≤ h.sl then _ else if h.sl ≤ 0 ∧ 0 ≤ h.sstar then _ else if h.sstar ≤ 0 ∧ 0 ≤ h.sr then _ else if h.sr ≤ 0 then _ else _) = _
  split_ifs <;> rfl

/-- **C126**, gas of given temperature in the plane, in turned or mirrored axes: both solvers, and recovery. -/
theorem iso2d_axes (Q : PlaneAxes) (P P' U : Iso2d.Tri) (n : UnitVec ℝ) (c c' : ℝ) :
    Iso2d.toConserved (Q.state P) = Q.state (Iso2d.toConserved P) ∧
    Iso2d.flux (Q.state P) (Q.normal n) c = Q.state (Iso2d.flux P n c) ∧
    Iso2d.wavespeeds (Q.state P) (Q.normal n) c = Iso2d.wavespeeds P n c ∧
    Iso2d.hlle (Q.state P) (Q.state P') c c' (Q.normal n) = Q.state (Iso2d.hlle P P' c c' n) ∧
    Iso2d.hllc (Q.state P) (Q.state P') c c' (Q.normal n) = (Iso2d.hllc P P' c c' n).map Q.state ∧
    Iso2d.recover (Q.state U) = (Iso2d.recover U).map Q.state := by
  refine ⟨plane_conserved Q P, plane_flux Q P n c, plane_wavespeeds Q P n c, ?_, ?_, ?_⟩
  · unfold Iso2d.hlle
    simp only [plane_conserved, plane_flux, plane_wavespeeds]
    ext
    · rfl
    · simp only [Iso2d.Tri.sub, Iso2d.Tri.mul, Iso2d.Tri.div, PlaneAxes.state, PlaneAxes.turn]; ring
    · simp only [Iso2d.Tri.sub, Iso2d.Tri.mul, Iso2d.Tri.div, PlaneAxes.state, PlaneAxes.turn]; ring
  · unfold Iso2d.hllc
    rw [plane_hllcVariables, plane_interface]
  · unfold Iso2d.recover
    show (if U.a < 0 then _ else _) = _
    by_cases h : U.a < 0
    · simp only [h, if_true]; rfl
    · simp only [h, if_false]
      show Outcome.ok _ = Outcome.ok _
      congr 1
      ext
      · rfl
      · simp only [PlaneAxes.state, PlaneAxes.turn]; ring
      · simp only [PlaneAxes.state, PlaneAxes.turn]; ring

/-- A mirror in an oblique line. -/
noncomputable def obliqueMirror : PlaneAxes where
  q := ![![3 / 5, 4 / 5], ![4 / 5, -3 / 5]]
  orthogonal := by
    intro i j
    fin_cases i <;> fin_cases j <;> norm_num

example : obliqueMirror.state ⟨2, 5, 0⟩ = ⟨2, 3, 4⟩ ∧
    Iso2d.hllc (obliqueMirror.state ⟨2, 5, 0⟩) (obliqueMirror.state ⟨1, 0, 0⟩) 1 2 (obliqueMirror.normal ⟨1, 0, 0⟩) =
      (Iso2d.hllc ⟨2, 5, 0⟩ ⟨1, 0, 0⟩ 1 2 ⟨1, 0, 0⟩).map obliqueMirror.state := by
  refine ⟨?_, (iso2d_axes obliqueMirror _ _ ⟨1, 0, 0⟩ _ _ _).2.2.2.2.1⟩
  ext
  · rfl
  · show 3 / 5 * (5 : ℝ) + 4 / 5 * 0 = 3; norm_num
  · show 4 / 5 * (5 : ℝ) + -3 / 5 * 0 = 4; norm_num

theorem PlaneAxes.hand_column (Q : PlaneAxes) : Q.hand * Q.q 1 0 = -Q.q 0 1 ∧ Q.hand * Q.q 1 1 = Q.q 0 0 ∧ Q.hand * Q.q 0 0 = Q.q 1 1 ∧ Q.hand * Q.q 0 1 = -Q.q 1 0 := by
  have h := Q.orthogonal
  have h00 := h 0 0; have h01 := h 0 1; have h11 := h 1 1
  simp only [if_true, Fin.isValue, zero_ne_one, if_false, reduceIte] at h00 h01 h11
  unfold PlaneAxes.hand
  refine ⟨?_, ?_, ?_, ?_⟩
  · linear_combination Q.q 0 0 * h01 - Q.q 0 1 * h00
  · linear_combination Q.q 0 0 * h11 - Q.q 0 1 * h01
  · linear_combination Q.q 1 1 * h00 - Q.q 1 0 * h01
  · linear_combination Q.q 1 1 * h01 - Q.q 1 0 * h11

/-- **C126**, the quantities with which the binary code conserves angular momentum: seen from a position turned with the axes they are the same, but that
angular momentum changes its sign in a mirror. -/
theorem angmom_axes (Q : PlaneAxes) (P U : Iso2d.Tri) (x y c : ℝ) :
    Iso2d.toAngmom (Q.state P) (Q.turn x y 0) (Q.turn x y 1) = Q.around (Iso2d.toAngmom P x y) ∧
    Iso2d.angmomFlux (Q.state U) (Q.turn x y 0) (Q.turn x y 1) = Q.around (Iso2d.angmomFlux U x y) ∧
    Iso2d.sourceAngmom (Q.state P) c = Iso2d.sourceAngmom P c ∧
    Iso2d.recoverAngmom (Q.around U) (Q.turn x y 0) (Q.turn x y 1) = (Iso2d.recoverAngmom U x y).map Q.state ∧
    Iso2d.angmomToConserved (Q.around U) (Q.turn x y 0) (Q.turn x y 1) = Q.state (Iso2d.angmomToConserved U x y) := by
  obtain ⟨h10, h11, h00, h01⟩ := Q.hand_column
  have hr := Q.dot x y x y
  have cross : ∀ b c : ℝ, Q.turn x y 0 * Q.turn b c 1 - Q.turn x y 1 * Q.turn b c 0 = Q.hand * (x * c - y * b) := by
    intro b c
    unfold PlaneAxes.turn PlaneAxes.hand
    ring
  refine ⟨?_, ?_, ?_, ?_, ?_⟩
  · ext
    · rfl
    · exact congrArg (P.a * ·) (Q.dot x y P.b P.c)
    · show P.a * (Q.turn x y 0 * Q.turn P.b P.c 1 - Q.turn x y 1 * Q.turn P.b P.c 0) = Q.hand * (P.a * (x * P.c - y * P.b))
      rw [cross]; ring
  · ext
    · rfl
    · exact Q.dot x y U.b U.c
    · exact cross _ _
  · have hv : Iso2d.velocitySquared (Q.state P) = Iso2d.velocitySquared P := Q.dot _ _ _ _
    unfold Iso2d.sourceAngmom
    rw [hv]
    rfl
  · unfold Iso2d.recoverAngmom
    show (if U.a < 0 then _ else _) = _
    by_cases h : U.a < 0
    · simp only [h, if_true]; rfl
    · simp only [h, if_false]
      show Outcome.ok _ = Outcome.ok _
      congr 1
      rw [hr]
      ext
      · rfl
      · simp only [PlaneAxes.state, PlaneAxes.turn, PlaneAxes.around]
        linear_combination (-U.c / U.a / (x * x + y * y) * x) * h10 + (-U.c / U.a / (x * x + y * y) * y) * h11
      · simp only [PlaneAxes.state, PlaneAxes.turn, PlaneAxes.around]
        linear_combination (U.c / U.a / (x * x + y * y) * x) * h00 + (U.c / U.a / (x * x + y * y) * y) * h01
  · unfold Iso2d.angmomToConserved
    simp only [hr]
    ext
    · rfl
    · simp only [PlaneAxes.state, PlaneAxes.turn, PlaneAxes.around]
      linear_combination (-U.c / (x * x + y * y) * x) * h10 + (-U.c / (x * x + y * y) * y) * h11
    · simp only [PlaneAxes.state, PlaneAxes.turn, PlaneAxes.around]
      linear_combination (U.c / (x * x + y * y) * x) * h00 + (U.c / (x * x + y * y) * y) * h01

example : obliqueMirror.hand = -1 ∧
    Iso2d.toAngmom (obliqueMirror.state ⟨2, 5, 0⟩) (obliqueMirror.turn 0 10 0) (obliqueMirror.turn 0 10 1) = ⟨2, 0, 100⟩ ∧ Iso2d.toAngmom ⟨2, 5, 0⟩ 0 10 = ⟨2, 0, -100⟩ := by
  have hh : obliqueMirror.hand = -1 := by
    show 3 / 5 * (-3 / 5 : ℝ) - 4 / 5 * (4 / 5) = -1
    norm_num
  have h0 : Iso2d.toAngmom ⟨2, 5, 0⟩ 0 10 = ⟨2, 0, -100⟩ := by
    unfold Iso2d.toAngmom
    norm_num
  refine ⟨hh, ?_, h0⟩
  rw [(angmom_axes obliqueMirror ⟨2, 5, 0⟩ ⟨1, 0, 0⟩ 0 10 1).1, h0, PlaneAxes.around, hh]
  norm_num

/-! ### Other units -/

theorem neg_scale {m a : ℝ} (hm : 0 < m) : m * a < 0 ↔ a < 0 := by
  constructor
  · intro h; by_contra hc; have := mul_nonneg hm.le (not_lt.1 hc); linarith
  · intro h; exact mul_neg_of_pos_of_neg hm h

theorem max_scale {m : ℝ} (hm : 0 < m) (a b : ℝ) : max 0 (max (m * a) (m * b)) = m * max 0 (max a b) := by
  rw [mul_max_of_nonneg _ _ hm.le, mul_max_of_nonneg _ _ hm.le, mul_zero]

theorem min_scale {m : ℝ} (hm : 0 < m) (a b : ℝ) : min 0 (min (m * a) (m * b)) = m * min 0 (min a b) := by
  rw [mul_min_of_nonneg _ _ hm.le, mul_min_of_nonneg _ _ hm.le, mul_zero]

/-- The combination of the solvers, in other units. -/
theorem hlle_scale {l m : ℝ} (hm : 0 < m) (Fl Fr Ul Ur ap am : ℝ) :
    (m * (l * Fl) * (m * ap) - m * (l * Fr) * (m * am) - (l * Ul - l * Ur) * (m * ap) * (m * am)) / (m * ap - m * am) =
      m * (l * ((Fl * ap - Fr * am - (Ul - Ur) * ap * am) / (ap - am))) := by
  rw [show m * (l * Fl) * (m * ap) - m * (l * Fr) * (m * am) - (l * Ul - l * Ur) * (m * ap) * (m * am) =
    m * (m * (l * (Fl * ap - Fr * am - (Ul - Ur) * ap * am))) by ring, ← mul_sub m ap am, mul_div_mul_left _ _ hm.ne', mul_div_assoc, mul_div_assoc]

theorem euler_conserved_units (s : Units) (P : Fin 5 → ℝ) (g : ℝ) : Euler.toConserved (s.primitive P) g = s.conserved (Euler.toConserved P g) := by
  refine vec_ext rfl ?_ ?_ ?_ ?_
  · show s.density * P 0 * (s.velocity * P 1) = s.density * s.velocity * (P 0 * P 1); ring
  · show s.density * P 0 * (s.velocity * P 2) = s.density * s.velocity * (P 0 * P 2); ring
  · show s.density * P 0 * (s.velocity * P 3) = s.density * s.velocity * (P 0 * P 3); ring
  · show 1 / 2 * (s.density * P 0) * (s.velocity * P 1 * (s.velocity * P 1) + s.velocity * P 2 * (s.velocity * P 2) + s.velocity * P 3 * (s.velocity * P 3)) +
      s.density * s.velocity ^ 2 * P 4 / (g - 1) = s.density * s.velocity ^ 2 * (1 / 2 * P 0 * (P 1 * P 1 + P 2 * P 2 + P 3 * P 3) + P 4 / (g - 1))
    ring

theorem euler_along_units (s : Units) (P : Fin 5 → ℝ) (n : UnitVec ℝ) : Euler.velocityAlong (s.primitive P) n = s.velocity * Euler.velocityAlong P n := by
  show s.velocity * P 1 * n.n1 + s.velocity * P 2 * n.n2 + s.velocity * P 3 * n.n3 = s.velocity * (P 1 * n.n1 + P 2 * n.n2 + P 3 * n.n3)
  ring

theorem euler_fluxWith_units (s : Units) (P : Fin 5 → ℝ) (n : UnitVec ℝ) (U : Fin 5 → ℝ) :
    Euler.fluxWith (s.primitive P) n (s.conserved U) = s.flux (Euler.fluxWith P n U) := by
  unfold Euler.fluxWith
  simp only [euler_along_units]
  generalize Euler.velocityAlong P n = v
  refine vec_ext ?_ ?_ ?_ ?_ ?_
  · show s.velocity * v * (s.density * U 0) = s.velocity * (s.density * (v * U 0)); ring
  · show s.velocity * v * (s.density * s.velocity * U 1) + s.density * s.velocity ^ 2 * P 4 * n.n1 = s.velocity * (s.density * s.velocity * (v * U 1 + P 4 * n.n1)); ring
  · show s.velocity * v * (s.density * s.velocity * U 2) + s.density * s.velocity ^ 2 * P 4 * n.n2 = s.velocity * (s.density * s.velocity * (v * U 2 + P 4 * n.n2)); ring
  · show s.velocity * v * (s.density * s.velocity * U 3) + s.density * s.velocity ^ 2 * P 4 * n.n3 = s.velocity * (s.density * s.velocity * (v * U 3 + P 4 * n.n3)); ring
  · show s.velocity * v * (s.density * s.velocity ^ 2 * U 4) + s.density * s.velocity ^ 2 * P 4 * (s.velocity * v) =
      s.velocity * (s.density * s.velocity ^ 2 * (v * U 4 + P 4 * v)); ring

theorem euler_wavespeeds_units (s : Units) (P : Fin 5 → ℝ) (n : UnitVec ℝ) (g : ℝ) :
    Euler.wavespeeds (s.primitive P) n g = (s.velocity * (Euler.wavespeeds P n g).1, s.velocity * (Euler.wavespeeds P n g).2) := by
  have hc : Real.sqrt (Euler.soundSpeedSquared (s.primitive P) g) = s.velocity * Real.sqrt (Euler.soundSpeedSquared P g) := by
    have : Euler.soundSpeedSquared (s.primitive P) g = s.velocity ^ 2 * Euler.soundSpeedSquared P g := by
      show g * (s.density * s.velocity ^ 2 * P 4) / (s.density * P 0) = s.velocity ^ 2 * (g * P 4 / P 0)
      rw [show g * (s.density * s.velocity ^ 2 * P 4) = s.density * (s.velocity ^ 2 * (g * P 4)) by ring, mul_div_mul_left _ _ s.density_pos.ne', mul_div_assoc]
    rw [this, Real.sqrt_mul (sq_nonneg _), Real.sqrt_sq s.velocity_pos.le]
  unfold Euler.wavespeeds
  simp only [hc, euler_along_units]
  rw [mul_sub, mul_add]

theorem Units.conserved_factor (s : Units) (i : Fin 5) : ∃ l, ∀ U, s.conserved U i = l * U i := by
  fin_cases i
  · exact ⟨_, fun _ => rfl⟩
  · exact ⟨_, fun _ => rfl⟩
  · exact ⟨_, fun _ => rfl⟩
  · exact ⟨_, fun _ => rfl⟩
  · exact ⟨_, fun _ => rfl⟩

/-- **C126**, gas dynamics in other units: conserved quantities, fluxes, speeds of waves, the fluxes between two states and recovery are those of the same gas,
written in the new units. -/
theorem euler_units (s : Units) (P P' U : Fin 5 → ℝ) (n : UnitVec ℝ) (g T : ℝ) :
    Euler.toConserved (s.primitive P) g = s.conserved (Euler.toConserved P g) ∧
    Euler.flux (s.primitive P) n g = s.flux (Euler.flux P n g) ∧
    Euler.wavespeeds (s.primitive P) n g = (s.velocity * (Euler.wavespeeds P n g).1, s.velocity * (Euler.wavespeeds P n g).2) ∧
    Euler.hlle (s.primitive P) (s.primitive P') n g = s.flux (Euler.hlle P P' n g) ∧
    Euler.recover (s.conserved U) g (s.velocity ^ 2 * T) = s.primitive (Euler.recover U g T) := by
  refine ⟨euler_conserved_units s P g, ?_, euler_wavespeeds_units s P n g, ?_, ?_⟩
  · unfold Euler.flux
    rw [euler_conserved_units, euler_fluxWith_units]
  · unfold Euler.hlle
    simp only [euler_conserved_units, euler_fluxWith_units, euler_wavespeeds_units, max_scale s.velocity_pos, min_scale s.velocity_pos]
    funext i
    obtain ⟨l, hl⟩ := s.conserved_factor i
    simp only [Units.flux, hl]
    exact hlle_scale s.velocity_pos _ _ _ _ _ _
  · have hd := s.density_pos.ne'
    have hm := s.velocity_pos.ne'
    have hv : ∀ x : ℝ, s.density * s.velocity * x / (s.density * U 0) = s.velocity * (x / U 0) := by
      intro x
      rw [mul_assoc, mul_div_mul_left _ _ hd, mul_div_assoc]
    refine vec_ext rfl (hv _) (hv _) (hv _) ?_
    show Euler.floored ((s.density * s.velocity ^ 2 * U 4 - 1 / 2 * (s.density * s.velocity * U 1 * (s.density * s.velocity * U 1) +
        s.density * s.velocity * U 2 * (s.density * s.velocity * U 2) + s.density * s.velocity * U 3 * (s.density * s.velocity * U 3)) / (s.density * U 0)) * (g - 1))
        (s.density * U 0) (s.velocity ^ 2 * T) =
      s.density * s.velocity ^ 2 * Euler.floored ((U 4 - 1 / 2 * (U 1 * U 1 + U 2 * U 2 + U 3 * U 3) / U 0) * (g - 1)) (U 0) T
    have hp : (s.density * s.velocity ^ 2 * U 4 - 1 / 2 * (s.density * s.velocity * U 1 * (s.density * s.velocity * U 1) +
        s.density * s.velocity * U 2 * (s.density * s.velocity * U 2) + s.density * s.velocity * U 3 * (s.density * s.velocity * U 3)) / (s.density * U 0)) * (g - 1) =
        s.density * s.velocity ^ 2 * ((U 4 - 1 / 2 * (U 1 * U 1 + U 2 * U 2 + U 3 * U 3) / U 0) * (g - 1)) := by
      rw [show 1 / 2 * (s.density * s.velocity * U 1 * (s.density * s.velocity * U 1) + s.density * s.velocity * U 2 * (s.density * s.velocity * U 2) +
        s.density * s.velocity * U 3 * (s.density * s.velocity * U 3)) = s.density * (s.density * s.velocity ^ 2 * (1 / 2 * (U 1 * U 1 + U 2 * U 2 + U 3 * U 3))) by ring,
        mul_div_mul_left _ _ hd]
      ring
    rw [hp]
    generalize (U 4 - 1 / 2 * (U 1 * U 1 + U 2 * U 2 + U 3 * U 3) / U 0) * (g - 1) = p
    have h2 : 0 < s.velocity ^ 2 := pow_pos s.velocity_pos 2
    have h3 : 0 < s.density * s.velocity ^ 2 := mul_pos s.density_pos h2
    unfold Euler.floored
    by_cases h : p < 0 ∧ 0 < T
    · rw [if_pos h, if_pos ⟨mul_neg_of_pos_of_neg h3 h.1, mul_pos h2 h.2⟩]; ring
    · rw [if_neg h, if_neg]
      rintro ⟨ha, hb⟩
      exact h ⟨(neg_scale h3).1 ha, (mul_pos_iff_of_pos_left h2).1 hb⟩

example : Euler.hlle (Units.primitive ⟨1000, 3, by norm_num, by norm_num⟩ ![1, 1, 0, 0, 1]) (Units.primitive ⟨1000, 3, by norm_num, by norm_num⟩ ![2, 0, 1, 0, 1])
    ⟨1, 0, 0⟩ (5 / 3) = Units.flux ⟨1000, 3, by norm_num, by norm_num⟩ (Euler.hlle ![1, 1, 0, 0, 1] ![2, 0, 1, 0, 1] ⟨1, 0, 0⟩ (5 / 3)) :=
  (euler_units ⟨1000, 3, by norm_num, by norm_num⟩ _ _ 0 _ _ 0).2.2.2.1

theorem plane_along_units (s : Units) (P : Iso2d.Tri) (n : UnitVec ℝ) : Iso2d.velocityAlong (s.planePrimitive P) n = s.velocity * Iso2d.velocityAlong P n := by
  show s.velocity * P.b * n.n1 + s.velocity * P.c * n.n2 + 0 * n.n3 = s.velocity * (P.b * n.n1 + P.c * n.n2 + 0 * n.n3)
  ring

theorem plane_conserved_units (s : Units) (P : Iso2d.Tri) : Iso2d.toConserved (s.planePrimitive P) = s.planeConserved (Iso2d.toConserved P) := by
  ext
  · rfl
  · show s.density * P.a * (s.velocity * P.b) = s.density * s.velocity * (P.a * P.b); ring
  · show s.density * P.a * (s.velocity * P.c) = s.density * s.velocity * (P.a * P.c); ring

theorem plane_flux_units (s : Units) (P : Iso2d.Tri) (n : UnitVec ℝ) (c : ℝ) :
    Iso2d.flux (s.planePrimitive P) n (s.velocity ^ 2 * c) = s.planeFlux (Iso2d.flux P n c) := by
  unfold Iso2d.flux
  simp only [plane_along_units]
  generalize Iso2d.velocityAlong P n = v
  ext
  · show s.velocity * v * (s.density * P.a) = s.velocity * (s.density * (v * P.a)); ring
  · show s.velocity * v * (s.density * P.a) * (s.velocity * P.b) + s.density * P.a * (s.velocity ^ 2 * c) * n.n1 =
      s.velocity * (s.density * s.velocity * (v * P.a * P.b + P.a * c * n.n1)); ring
  · show s.velocity * v * (s.density * P.a) * (s.velocity * P.c) + s.density * P.a * (s.velocity ^ 2 * c) * n.n2 =
      s.velocity * (s.density * s.velocity * (v * P.a * P.c + P.a * c * n.n2)); ring

theorem sqrt_units (s : Units) (c : ℝ) : Real.sqrt (s.velocity ^ 2 * c) = s.velocity * Real.sqrt c := by
  rw [Real.sqrt_mul (sq_nonneg _), Real.sqrt_sq s.velocity_pos.le]

theorem plane_wavespeeds_units (s : Units) (P : Iso2d.Tri) (n : UnitVec ℝ) (c : ℝ) :
    Iso2d.wavespeeds (s.planePrimitive P) n (s.velocity ^ 2 * c) = (s.velocity * (Iso2d.wavespeeds P n c).1, s.velocity * (Iso2d.wavespeeds P n c).2) := by
  unfold Iso2d.wavespeeds
  simp only [sqrt_units, plane_along_units]
  rw [mul_sub, mul_add]

/-- The variables of the solver in other units. -/
noncomputable def Units.hllc (s : Units) (h : Iso2d.Hllc) : Iso2d.Hllc :=
  { n := h.n, Pl := s.planePrimitive h.Pl, Pr := s.planePrimitive h.Pr
    perpL1 := s.velocity * h.perpL1, perpL2 := s.velocity * h.perpL2, perpR1 := s.velocity * h.perpR1, perpR2 := s.velocity * h.perpR2
    ul := s.velocity * h.ul, ur := s.velocity * h.ur, al := s.velocity * h.al, ar := s.velocity * h.ar
    pressL := s.density * s.velocity ^ 2 * h.pressL, pressR := s.density * s.velocity ^ 2 * h.pressR
    sl := s.velocity * h.sl, sr := s.velocity * h.sr, sstar := s.velocity * h.sstar }

theorem plane_hllcVariables_units (s : Units) (P P' : Iso2d.Tri) (c c' : ℝ) (n : UnitVec ℝ) :
    Iso2d.hllcVariables (s.planePrimitive P) (s.planePrimitive P') (s.velocity ^ 2 * c) (s.velocity ^ 2 * c') n = s.hllc (Iso2d.hllcVariables P P' c c' n) := by
  have hd := s.density_pos
  have hm := s.velocity_pos
  have h3 : 0 < s.density * s.velocity ^ 2 := mul_pos hd (pow_pos hm 2)
  unfold Iso2d.hllcVariables Units.hllc
  simp only [plane_along_units, sqrt_units]
  simp only [Units.planePrimitive, Iso2d.Hllc.mk.injEq, true_and]
  generalize Iso2d.velocityAlong P n = u
  generalize Iso2d.velocityAlong P' n = u'
  generalize Real.sqrt c = a
  generalize Real.sqrt c' = a'
  have hp : s.density * P.a * (s.velocity ^ 2 * c) = s.density * s.velocity ^ 2 * (P.a * c) := by ring
  have hp' : s.density * P'.a * (s.velocity ^ 2 * c') = s.density * s.velocity ^ 2 * (P'.a * c') := by ring
  have hs : max 0 (1 / 2 * (s.density * s.velocity ^ 2 * (P.a * c) + s.density * s.velocity ^ 2 * (P'.a * c')) -
      1 / 2 * (s.velocity * u' - s.velocity * u) * (1 / 2 * (s.density * P.a + s.density * P'.a)) * (1 / 2 * (s.velocity * a + s.velocity * a'))) =
      s.density * s.velocity ^ 2 * max 0 (1 / 2 * (P.a * c + P'.a * c') - 1 / 2 * (u' - u) * (1 / 2 * (P.a + P'.a)) * (1 / 2 * (a + a'))) := by
    rw [mul_max_of_nonneg _ _ h3.le, mul_zero]
    congr 1
    ring
  rw [hp, hp', hs]
  simp only [mul_div_mul_left _ _ h3.ne']
  generalize max 0 (1 / 2 * (P.a * c + P'.a * c') - 1 / 2 * (u' - u) * (1 / 2 * (P.a + P'.a)) * (1 / 2 * (a + a'))) = ps
  generalize max 1 (Real.sqrt (ps / (P.a * c))) = q
  generalize max 1 (Real.sqrt (ps / (P'.a * c'))) = q'
  refine ⟨by ring, by ring, by ring, by ring, trivial, trivial, by ring, by ring, ?_⟩
  rw [show s.density * s.velocity ^ 2 * (P'.a * c') - s.density * s.velocity ^ 2 * (P.a * c) +
      s.velocity * u * (s.density * P.a) * (s.velocity * u - s.velocity * a * q - s.velocity * u) -
      s.velocity * u' * (s.density * P'.a) * (s.velocity * u' + s.velocity * a' * q' - s.velocity * u') =
      s.density * s.velocity * (s.velocity * (P'.a * c' - P.a * c + u * P.a * (u - a * q - u) - u' * P'.a * (u' + a' * q' - u'))) by ring,
    show s.density * P.a * (s.velocity * u - s.velocity * a * q - s.velocity * u) - s.density * P'.a * (s.velocity * u' + s.velocity * a' * q' - s.velocity * u') =
      s.density * s.velocity * (P.a * (u - a * q - u) - P'.a * (u' + a' * q' - u')) by ring, mul_div_mul_left _ _ (mul_pos hd hm).ne', mul_div_assoc]

theorem plane_interface_units (s : Units) (h : Iso2d.Hllc) : (s.hllc h).interfaceFlux = h.interfaceFlux.map s.planeFlux := by
  have hd := s.density_pos
  have hm := s.velocity_pos
  have hl : (s.hllc h).Fl = s.planeFlux h.Fl := by
    show Iso2d.flux (s.planePrimitive h.Pl) h.n (s.velocity * h.al * (s.velocity * h.al)) = _
    rw [show s.velocity * h.al * (s.velocity * h.al) = s.velocity ^ 2 * (h.al * h.al) by ring]
    exact plane_flux_units s _ _ _
  have hr : (s.hllc h).Fr = s.planeFlux h.Fr := by
    show Iso2d.flux (s.planePrimitive h.Pr) h.n (s.velocity * h.ar * (s.velocity * h.ar)) = _
    rw [show s.velocity * h.ar * (s.velocity * h.ar) = s.velocity ^ 2 * (h.ar * h.ar) by ring]
    exact plane_flux_units s _ _ _
  have hstar : ∀ d x y z : ℝ, s.density * d * (s.velocity * x - s.velocity * y) / (s.velocity * x - s.velocity * z) = s.density * (d * (x - y) / (x - z)) := by
    intro d x y z
    rw [← mul_sub, ← mul_sub, show s.density * d * (s.velocity * (x - y)) = s.velocity * (s.density * (d * (x - y))) by ring, mul_div_mul_left _ _ hm.ne', mul_div_assoc]
  have h1 : (s.hllc h).Fl.add (((s.hllc h).UlStar.sub (s.hllc h).Ul).mul (s.hllc h).sl) = s.planeFlux (h.Fl.add ((h.UlStar.sub h.Ul).mul h.sl)) := by
    rw [hl]
    simp only [Iso2d.Tri.add, Iso2d.Tri.sub, Iso2d.Tri.mul, Iso2d.Hllc.UlStar, Iso2d.Hllc.Ul, Units.hllc, Units.planeFlux, Units.planePrimitive, Iso2d.toConserved, hstar]
    ext <;> dsimp only <;> ring
  have h2 : (s.hllc h).Fr.add (((s.hllc h).UrStar.sub (s.hllc h).Ur).mul (s.hllc h).sr) = s.planeFlux (h.Fr.add ((h.UrStar.sub h.Ur).mul h.sr)) := by
    rw [hr]
    simp only [Iso2d.Tri.add, Iso2d.Tri.sub, Iso2d.Tri.mul, Iso2d.Hllc.UrStar, Iso2d.Hllc.Ur, Units.hllc, Units.planeFlux, Units.planePrimitive, Iso2d.toConserved, hstar]
    ext <;> dsimp only <;> ring
  have hp : ∀ x : ℝ, 0 ≤ s.velocity * x ↔ 0 ≤ x := fun x => mul_nonneg_iff_of_pos_left hm
  have hn : ∀ x : ℝ, s.velocity * x ≤ 0 ↔ x ≤ 0 := fun x => by
    constructor
    · intro hx; by_contra hc; have := mul_pos hm (not_le.1 hc); linarith
    · intro hx; exact mul_nonpos_of_nonneg_of_nonpos hm.le hx
  unfold Iso2d.Hllc.interfaceFlux
  rw [h1, h2, hl, hr]
  simp only [show (s.hllc h).sl = s.velocity * h.sl from rfl, show (s.hllc h).sr = s.velocity * h.sr from rfl, show (s.hllc h).sstar = s.velocity * h.sstar from rfl, hp, hn]
  split_ifs <;> rfl

/-- **C126**, gas of given temperature in the plane, in other units: both solvers, and recovery. -/
theorem iso2d_units (s : Units) (P P' U : Iso2d.Tri) (n : UnitVec ℝ) (c c' : ℝ) :
    Iso2d.toConserved (s.planePrimitive P) = s.planeConserved (Iso2d.toConserved P) ∧
    Iso2d.flux (s.planePrimitive P) n (s.velocity ^ 2 * c) = s.planeFlux (Iso2d.flux P n c) ∧
    Iso2d.wavespeeds (s.planePrimitive P) n (s.velocity ^ 2 * c) = (s.velocity * (Iso2d.wavespeeds P n c).1, s.velocity * (Iso2d.wavespeeds P n c).2) ∧
    Iso2d.hlle (s.planePrimitive P) (s.planePrimitive P') (s.velocity ^ 2 * c) (s.velocity ^ 2 * c') n = s.planeFlux (Iso2d.hlle P P' c c' n) ∧
    Iso2d.hllc (s.planePrimitive P) (s.planePrimitive P') (s.velocity ^ 2 * c) (s.velocity ^ 2 * c') n = (Iso2d.hllc P P' c c' n).map s.planeFlux ∧
    Iso2d.recover (s.planeConserved U) = (Iso2d.recover U).map s.planePrimitive := by
  refine ⟨plane_conserved_units s P, plane_flux_units s P n c, plane_wavespeeds_units s P n c, ?_, ?_, ?_⟩
  · unfold Iso2d.hlle
    simp only [plane_conserved_units, plane_flux_units, plane_wavespeeds_units, max_scale s.velocity_pos, min_scale s.velocity_pos]
    ext
    · exact hlle_scale s.velocity_pos _ _ _ _ _ _
    · exact hlle_scale s.velocity_pos _ _ _ _ _ _
    · exact hlle_scale s.velocity_pos _ _ _ _ _ _
  · unfold Iso2d.hllc
    rw [plane_hllcVariables_units, plane_interface_units]
  · have hd := s.density_pos
    have ha : s.density * U.a < 0 ↔ U.a < 0 := neg_scale hd
    have hv : ∀ x : ℝ, s.density * s.velocity * x / (s.density * U.a) = s.velocity * (x / U.a) := by
      intro x
      rw [mul_assoc, mul_div_mul_left _ _ hd.ne', mul_div_assoc]
    unfold Iso2d.recover
    simp only [Units.planeConserved, hv, ha]
    split_ifs <;> rfl

example : Iso2d.hllc (Units.planePrimitive ⟨1000, 3, by norm_num, by norm_num⟩ ⟨1, 1, 0⟩) (Units.planePrimitive ⟨1000, 3, by norm_num, by norm_num⟩ ⟨2, 0, 1⟩)
    (3 ^ 2 * 1) (3 ^ 2 * 2) ⟨1, 0, 0⟩ = (Iso2d.hllc ⟨1, 1, 0⟩ ⟨2, 0, 1⟩ 1 2 ⟨1, 0, 0⟩).map (Units.planeFlux ⟨1000, 3, by norm_num, by norm_num⟩) :=
  (iso2d_units ⟨1000, 3, by norm_num, by norm_num⟩ _ _ ⟨1, 0, 0⟩ _ _ _).2.2.2.2.1

theorem srhd_lorentz_rest (l : ℝ) (P : Fin 5 → ℝ) : Srhd.lorentzFactor (rest l P) = Srhd.lorentzFactor P := rfl

theorem srhd_along_rest (l : ℝ) (P : Fin 5 → ℝ) (n : UnitVec ℝ) : Srhd.betaAlong (rest l P) n = Srhd.betaAlong P n := rfl

theorem srhd_enthalpy_rest (l : ℝ) (P : Fin 5 → ℝ) (g : ℝ) : Srhd.enthalpyDensity (rest l P) g = l * Srhd.enthalpyDensity P g := by
  show l * P 0 + l * P 4 * (1 + 1 / (g - 1)) = l * (P 0 + P 4 * (1 + 1 / (g - 1)))
  ring

theorem srhd_conserved_rest {l : ℝ} (hl : 0 < l) (P : Fin 5 → ℝ) (g : ℝ) : Srhd.toConserved (rest l P) g = fun i => l * Srhd.toConserved P g i := by
  have hh : Srhd.specificEnthalpy (rest l P) g = Srhd.specificEnthalpy P g := by
    unfold Srhd.specificEnthalpy
    rw [srhd_enthalpy_rest]
    exact mul_div_mul_left _ _ hl.ne'
  unfold Srhd.toConserved
  simp only [srhd_lorentz_rest, hh]
  generalize Srhd.lorentzFactor P = W
  generalize Srhd.specificEnthalpy P g = h
  refine vec_ext ?_ ?_ ?_ ?_ ?_
  · show l * P 0 * W = l * (P 0 * W); ring
  · show l * P 0 * W * P 1 * h = l * (P 0 * W * P 1 * h); ring
  · show l * P 0 * W * P 2 * h = l * (P 0 * W * P 2 * h); ring
  · show l * P 0 * W * P 3 * h = l * (P 0 * W * P 3 * h); ring
  · show l * P 0 * W * h * W - l * P 4 - l * P 0 * W = l * (P 0 * W * h * W - P 4 - P 0 * W); ring

theorem srhd_fluxWith_rest (l : ℝ) (P : Fin 5 → ℝ) (n : UnitVec ℝ) (U : Fin 5 → ℝ) :
    Srhd.fluxWith (rest l P) n (fun i => l * U i) = fun i => l * Srhd.fluxWith P n U i := by
  unfold Srhd.fluxWith
  simp only [srhd_along_rest]
  generalize Srhd.betaAlong P n = v
  refine vec_ext ?_ ?_ ?_ ?_ ?_
  · show v * (l * U 0) = l * (v * U 0); ring
  · show v * (l * U 1) + l * P 4 * n.n1 = l * (v * U 1 + P 4 * n.n1); ring
  · show v * (l * U 2) + l * P 4 * n.n2 = l * (v * U 2 + P 4 * n.n2); ring
  · show v * (l * U 3) + l * P 4 * n.n3 = l * (v * U 3 + P 4 * n.n3); ring
  · show v * (l * U 4) + l * P 4 * v = l * (v * U 4 + P 4 * v); ring

theorem srhd_wavespeeds_rest {l : ℝ} (hl : 0 < l) (P : Fin 5 → ℝ) (n : UnitVec ℝ) (g : ℝ) : Srhd.wavespeeds (rest l P) n g = Srhd.wavespeeds P n g := by
  have hc : Srhd.soundSpeedSquared (rest l P) g = Srhd.soundSpeedSquared P g := by
    unfold Srhd.soundSpeedSquared
    rw [srhd_enthalpy_rest]
    show g * (l * P 4) / (l * Srhd.enthalpyDensity P g) = g * P 4 / Srhd.enthalpyDensity P g
    rw [mul_left_comm, mul_div_mul_left _ _ hl.ne']
  unfold Srhd.wavespeeds
  simp only [srhd_along_rest, hc]
  rfl

/-- **C126**, relativistic gas dynamics in another unit of density: conserved quantities, fluxes, speeds of waves and the fluxes between two states are those of
the same gas.  Missing: recovery, for which this is wrong, `srhd_units_violated`. -/
theorem srhd_units_partial {l : ℝ} (hl : 0 < l) (P P' : Fin 5 → ℝ) (n : UnitVec ℝ) (g : ℝ) :
    (Srhd.toConserved (rest l P) g = fun i => l * Srhd.toConserved P g i) ∧
    (Srhd.flux (rest l P) n g = fun i => l * Srhd.flux P n g i) ∧
    Srhd.wavespeeds (rest l P) n g = Srhd.wavespeeds P n g ∧
    (Srhd.hlle (rest l P) (rest l P') n g = fun i => l * Srhd.hlle P P' n g i) := by
  refine ⟨srhd_conserved_rest hl P g, ?_, srhd_wavespeeds_rest hl P n g, ?_⟩
  · unfold Srhd.flux
    rw [srhd_conserved_rest hl, srhd_fluxWith_rest]
  · unfold Srhd.hlle
    simp only [srhd_conserved_rest hl, srhd_fluxWith_rest, srhd_wavespeeds_rest hl]
    funext i
    rw [← mul_div_assoc]
    congr 1
    ring

example : Srhd.flux (rest 1000 ![1, 3, 0, 4, 1]) ⟨1, 0, 0⟩ (4 / 3) = fun i => 1000 * Srhd.flux ![1, 3, 0, 4, 1] ⟨1, 0, 0⟩ (4 / 3) i :=
  (srhd_units_partial (by norm_num) _ 0 _ _).2.1

end Verif.Frame
