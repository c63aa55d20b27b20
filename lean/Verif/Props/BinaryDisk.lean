import Verif.Props.BinarySetup
import Mathlib.Analysis.SpecialFunctions.ExpDeriv
import Mathlib.Analysis.Calculus.Deriv.Mul
import Mathlib.Analysis.Calculus.Deriv.Inv

/-!
# C93, C95: the cells cover the domain; the initial disk is in balance
-/

namespace Verif.Tree

theorem leafSumAt_quarters {α : Type} (t : Tree 2 α) (i : Index 2) (A : ℝ) :
    leafSumAt (fun j _ => A / (2 ^ j.level) ^ 2) t i = A / (2 ^ i.level) ^ 2 := by
  induction t generalizing i with
  | leaf a => rfl
  | node c ih =>
    unfold leafSumAt
    rw [Finset.sum_congr rfl fun k _ => ih k (i.child k)]
    simp only [Index.child]
    rw [Finset.sum_const, Finset.card_univ, Fintype.card_fin, nsmul_eq_mul]
    push_cast
    have : (0 : ℝ) < 2 ^ i.level := by positivity
    field_simp
    norm_num
    ring

end Verif.Tree

namespace Verif.Binary

open Verif Verif.Nd Verif.Tree Iso2d Geometry TwoBody

/-- **C93**, the areas of the cells add up to the area of the domain. -/
theorem cells_cover {lin : Bool} {m : SolverData} {D N : Nat} (hm : MeshData lin m D N) :
    cellSum m.vertices N (fun i _ _ => cellSize m.params.domainRadius N i ^ 2) = (2 * m.params.domainRadius) ^ 2 := by
  have hN : (0 : ℝ) < N := by exact_mod_cast hm.shaped.pos
  unfold cellSum
  have e : ∀ i : Index 2, (∑ _x ∈ Finset.range N, ∑ _y ∈ Finset.range N, cellSize m.params.domainRadius N i ^ 2)
      = (2 * m.params.domainRadius) ^ 2 / (2 ^ i.level) ^ 2 := by
    intro i
    simp only [Finset.sum_const, Finset.card_range, nsmul_eq_mul]
    unfold cellSize
    field_simp
  simp only [e]
  refine (leafSumAt_quarters m.vertices .root _).trans ?_
  simp [Index.root]

/-- **C95**: where the gas has initial values, they are the surface density of the disk, an inflow of the rate `mdot` outside of radius two and none
inside, and a rotation whose centrifugal acceleration balances the gravity of a unit mass at the origin and the gradient of the pressure, with the speed of
sound `1 / sqrt r / mach`.  The rotation has the sense `counter_rotate` says.  Only for softening length zero. -/
theorem disk_balance_partial {c : RunConfig} (hsoft : c.softeningRadius = 0) {p : ℝ × ℝ} {P : Tri} (h : diskProfile c p = .ok P) :
    ∃ r > 0, r ^ 2 = p.1 ^ 2 + p.2 ^ 2 ∧ P.a = c.sigma r ∧
      (2 < r → 2 * Real.pi * r * P.a * ((p.1 * P.b + p.2 * P.c) / r) = -c.mdot) ∧ (r ≤ 2 → p.1 * P.b + p.2 * P.c = 0) ∧
      (c.counterRotate = false → 0 ≤ p.1 * P.c - p.2 * P.b) ∧ (c.counterRotate = true → p.1 * P.c - p.2 * P.b ≤ 0) ∧
      ∃ d, HasDerivAt (fun r => c.sigma r * (1 / Real.sqrt r / c.machNumber) ^ 2) d r ∧
        ((p.1 * P.c - p.2 * P.b) / r) ^ 2 / r = 1 / r ^ 2 + d / P.a := by
  unfold diskProfile at h
  dsimp only at h
  split at h
  · cases h
  rename_i hn
  push Not at hn
  obtain ⟨h1, h2, _, h4, h5, h6⟩ := hn
  have h0 : 0 ≤ p.1 * p.1 + p.2 * p.2 := add_nonneg (mul_self_nonneg _) (mul_self_nonneg _)
  set r := Real.sqrt (p.1 * p.1 + p.2 * p.2) with hr
  have hrpos : 0 < r := lt_of_le_of_ne (Real.sqrt_nonneg _) h5.symm
  have hr2 : r ^ 2 = p.1 ^ 2 + p.2 ^ 2 := by
    rw [hr, Real.sq_sqrt h0]
    ring
  cases h
  rw [hsoft, add_zero] at h6 ⊢
  set V := Real.sqrt (1 / r + c.dpdr r) with hV
  have hV0 : 0 ≤ V := Real.sqrt_nonneg _
  have hV2 : V ^ 2 = 1 / r + c.dpdr r := Real.sq_sqrt h6
  have erad : ∀ a b : ℝ, p.1 * (a * (p.1 / r) + b * (-p.2 / r)) + p.2 * (a * (p.2 / r) + b * (p.1 / r)) = a * r := by
    intro a b
    field_simp
    linear_combination -a * hr2
  have etan : ∀ a b : ℝ, p.1 * (a * (p.2 / r) + b * (p.1 / r)) - p.2 * (a * (p.1 / r) + b * (-p.2 / r)) = b * r := by
    intro a b
    field_simp
    linear_combination -b * hr2
  refine ⟨r, hrpos, hr2, rfl, fun h => ?_, fun h => ?_, fun h => ?_, fun h => ?_, ?_⟩
  · dsimp only
    rw [erad, if_pos h]
    have := Real.pi_pos
    field_simp
  · dsimp only
    rw [erad, if_neg (by linarith)]
    ring
  · dsimp only
    rw [etan, h]
    simp only [Bool.false_eq_true, if_false, mul_one]
    positivity
  · dsimp only
    rw [etan, h]
    simp only [if_true]
    nlinarith [mul_nonneg hV0 hrpos.le]
  · dsimp only
    rw [etan]
    have hsig : HasDerivAt c.sigma (c.s0 * (Real.exp (-(1 / 2) * (r / c.diskRadius - 1) * (r / c.diskRadius - 1)) *
        (-(r / c.diskRadius - 1) / c.diskRadius))) r := by
      have hx : HasDerivAt (fun r => r / c.diskRadius - 1) (1 / c.diskRadius) r := ((hasDerivAt_id r).div_const _).sub_const 1
      have hq : HasDerivAt (fun r => -(1 / 2) * (r / c.diskRadius - 1) * (r / c.diskRadius - 1)) (-(r / c.diskRadius - 1) / c.diskRadius) r := by
        refine ((hx.const_mul (-(1 / 2) : ℝ)).mul hx).congr_deriv ?_
        ring
      exact (hq.exp.const_mul c.s0).add_const c.s1
    have hcs : HasDerivAt (fun r => (1 / Real.sqrt r / c.machNumber) ^ 2) (-(1 / r ^ 2) / c.machNumber ^ 2) r := by
      have hi : HasDerivAt (fun r : ℝ => r⁻¹ / c.machNumber ^ 2) (-(r ^ 2)⁻¹ / c.machNumber ^ 2) r := (hasDerivAt_inv hrpos.ne').div_const _
      refine (hi.congr_of_eventuallyEq ?_).congr_deriv (by rw [one_div])
      filter_upwards [lt_mem_nhds hrpos] with u hu
      rw [div_pow, div_pow, Real.sq_sqrt hu.le, one_pow, one_div]
    refine ⟨_, hsig.mul hcs, ?_⟩
    have hsq : (1 / Real.sqrt r / c.machNumber) ^ 2 = 1 / r / c.machNumber ^ 2 := by
      rw [div_pow, div_pow, Real.sq_sqrt hrpos.le, one_pow]
    have hsign : (if c.counterRotate = true then (-1 : ℝ) else 1) ^ 2 = 1 := by split_ifs <;> norm_num
    have hl : (V * (if c.counterRotate = true then (-1 : ℝ) else 1) * r / r) ^ 2 / r = (1 / r + c.dpdr r) / r := by
      rw [mul_div_assoc, div_self hrpos.ne', mul_one, mul_pow, hsign, mul_one, hV2]
    rw [hl, hsq]
    have hE : c.s0 * Real.exp (-(1 / 2) * (r / c.diskRadius - 1) * (r / c.diskRadius - 1)) = c.sigma r - c.s1 := by
      unfold RunConfig.sigma
      dsimp only
      ring
    rw [← mul_assoc, hE]
    unfold RunConfig.dpdr
    dsimp only
    rw [hsoft, add_zero]
    field_simp
    ring

/-- Non-vacuity: the default values with softening length zero, at a point in the inflow. -/
example : ∃ P, diskProfile { defaults with softeningRadius := 0, mdot := 1 } (3, 4) = .ok P := by
  set c : RunConfig := { defaults with softeningRadius := 0, mdot := 1 } with hc
  have hr : Real.sqrt ((3 : ℝ) * 3 + 4 * 4) = 5 := by
    rw [show (3 : ℝ) * 3 + 4 * 4 = 5 ^ 2 by norm_num]
    exact Real.sqrt_sq (by norm_num)
  have hs0 : 0 < c.s0 := by norm_num [RunConfig.s0, hc, defaults]
  have hs1 : 0 ≤ c.s1 := mul_nonneg (by norm_num [hc, defaults]) hs0.le
  have hsig : 0 < c.sigma 5 := by
    unfold RunConfig.sigma
    positivity
  have a1 : c.machNumber = 10 := rfl
  have a2 : c.softeningRadius = 0 := rfl
  have a3 : c.diskRadius = 2 := rfl
  have hrot : 0 ≤ 1 / (5 + c.softeningRadius) + c.dpdr 5 := by
    unfold RunConfig.dpdr
    dsimp only
    rw [a1, a2, a3]
    have : 0 ≤ c.s1 / c.sigma 5 := by positivity
    linarith
  unfold diskProfile
  dsimp only
  rw [hr, if_neg]
  · exact ⟨_, rfl⟩
  · rw [a1, a3]
    rintro (h | h | h | h | h | h)
    · norm_num at h
    · norm_num at h
    · norm_num [a2] at h
    · exact hsig.ne' h
    · norm_num at h
    · exact absurd h (not_lt.2 hrot)

end Verif.Binary
