import Verif.Lemmas.Hlle
import Verif.Props.EulerEigen
import Mathlib.Algebra.Order.BigOperators.Group.Finset

/-!
# The approximate Riemann solver and the Roe average for gas dynamics (C55, C56, C81)
-/

namespace Verif.Euler

open Geometry Matrices

/-- The opposite direction. -/
def opposite (n : UnitVec ℝ) : UnitVec ℝ := ⟨-n.n1, -n.n2, -n.n3⟩

theorem hlle_eq (Pl Pr : Vec) (n : UnitVec ℝ) (g : ℝ) (i : Fin 5) :
    hlle Pl Pr n g i = Hlle.core (flux Pl n g i) (flux Pr n g i) (toConserved Pl g i) (toConserved Pr g i)
      (max 0 (max (wavespeeds Pl n g).2 (wavespeeds Pr n g).2))
      (min 0 (min (wavespeeds Pl n g).1 (wavespeeds Pr n g).1)) := rfl

theorem sound_pos {P : Vec} (h : Physical P) {g : ℝ} (hg : 1 < g) : 0 < Real.sqrt (soundSpeedSquared P g) :=
  Real.sqrt_pos.2 (div_pos (mul_pos (by linarith) h.2) h.1)

theorem speeds_lt {Pl : Vec} (Pr : Vec) (n : UnitVec ℝ) {g : ℝ} (hl : Physical Pl) (hg : 1 < g) :
    min 0 (min (wavespeeds Pl n g).1 (wavespeeds Pr n g).1) < max 0 (max (wavespeeds Pl n g).2 (wavespeeds Pr n g).2) := by
  have h : (wavespeeds Pl n g).1 < (wavespeeds Pl n g).2 := by
    have := sound_pos hl hg
    simp only [wavespeeds]
    linarith
  exact lt_of_le_of_lt ((min_le_right _ _).trans (min_le_left _ _)) (h.trans_le ((le_max_left _ _).trans (le_max_right _ _)))

/-- **C55**: with equal states on both sides the HLLE flux is the flux of the gas. -/
theorem hlle_consistent (P : Vec) (h : Physical P) (n : UnitVec ℝ) (g : ℝ) (hg : 1 < g) :
    hlle P P n g = flux P n g := by
  funext i
  rw [hlle_eq]
  exact Hlle.core_consistent _ _ (speeds_lt P n h hg)

/-- **C55**: if all waves move forward the flux is that on the left, if all move backward it is that on the right. -/
theorem hlle_upwind (Pl Pr : Vec) (hl : Physical Pl) (hr : Physical Pr) (n : UnitVec ℝ) (g : ℝ) (hg : 1 < g) :
    (0 ≤ (wavespeeds Pl n g).1 → 0 ≤ (wavespeeds Pr n g).1 → hlle Pl Pr n g = flux Pl n g) ∧
      ((wavespeeds Pl n g).2 ≤ 0 → (wavespeeds Pr n g).2 ≤ 0 → hlle Pl Pr n g = flux Pr n g) := by
  have := speeds_lt Pr n hl hg
  constructor
  · intro h1 h2
    funext i
    rw [hlle_eq]
    rw [min_eq_left (le_min h1 h2)] at this ⊢
    exact Hlle.core_left _ _ _ _ this
  · intro h1 h2
    funext i
    rw [hlle_eq]
    rw [max_eq_left (max_le h1 h2)] at this ⊢
    exact Hlle.core_right _ _ _ _ this

/-- Two supersonic states. -/
example : hlle ![5 / 3, 3, 0, 0, 1] ![5 / 3, 2, 1, 0, 1] ⟨1, 0, 0⟩ (5 / 3) = flux ![5 / 3, 3, 0, 0, 1] ⟨1, 0, 0⟩ (5 / 3) := by
  have hs : ∀ P : Vec, P 0 = 5 / 3 → P 4 = 1 → soundSpeedSquared P (5 / 3) = 1 := by
    intro P h0 h4
    unfold soundSpeedSquared
    simp only [h0, h4]
    norm_num
  refine (hlle_upwind _ _ ⟨show (0 : ℝ) < 5 / 3 by norm_num, show (0 : ℝ) < 1 by norm_num⟩
    ⟨show (0 : ℝ) < 5 / 3 by norm_num, show (0 : ℝ) < 1 by norm_num⟩ _ _ (by norm_num)).1 ?_ ?_
  · unfold wavespeeds
    simp only [hs ![5 / 3, 3, 0, 0, 1] rfl rfl, Real.sqrt_one, velocityAlong]
    show (0 : ℝ) ≤ _
    norm_num [UnitVec.project]
  · unfold wavespeeds
    simp only [hs ![5 / 3, 2, 1, 0, 1] rfl rfl, Real.sqrt_one, velocityAlong]
    show (0 : ℝ) ≤ _
    norm_num [UnitVec.project]

theorem velocityAlong_opposite (P : Vec) (n : UnitVec ℝ) : velocityAlong P (opposite n) = -velocityAlong P n := by
  simp only [velocityAlong, UnitVec.project, opposite]; ring

theorem wavespeeds_opposite (P : Vec) (n : UnitVec ℝ) (g : ℝ) :
    wavespeeds P (opposite n) g = (-(wavespeeds P n g).2, -(wavespeeds P n g).1) := by
  simp only [wavespeeds, velocityAlong_opposite, Prod.mk.injEq]; constructor <;> ring

theorem flux_opposite (P : Vec) (n : UnitVec ℝ) (g : ℝ) (i : Fin 5) : flux P (opposite n) g i = -flux P n g i := by
  revert i
  refine forall5 ?_ ?_ ?_ ?_ ?_ <;>
    simp only [flux, fluxWith, velocityAlong_opposite, at0, at1, at2, at3, at4] <;> (try simp only [opposite]) <;> ring

theorem max_neg_neg3 (a b : ℝ) : max 0 (max (-a) (-b)) = -min 0 (min a b) := by
  rw [max_neg_neg, ← max_neg_neg 0, neg_zero]

theorem min_neg_neg3 (a b : ℝ) : min 0 (min (-a) (-b)) = -max 0 (max a b) := by
  rw [min_neg_neg, ← min_neg_neg 0, neg_zero]

/-- **C55**: seen from the other side, the flux is the opposite, in all components: what leaves one cell enters the
other. -/
theorem hlle_opposite (Pl Pr : Vec) (n : UnitVec ℝ) (g : ℝ) :
    hlle Pr Pl (opposite n) g = -hlle Pl Pr n g := by
  funext i
  rw [Pi.neg_apply, hlle_eq, hlle_eq, flux_opposite, flux_opposite, wavespeeds_opposite, wavespeeds_opposite]
  dsimp only
  rw [max_neg_neg3, min_neg_neg3, Hlle.core_mirror, min_comm (wavespeeds Pr n g).1, max_comm (wavespeeds Pr n g).2]

example : hlle ![1, -2, 1, 0, 5] ![4, 3, 0, 0, 1] (opposite ⟨3 / 5, 4 / 5, 0⟩) (5 / 3) =
    -hlle ![4, 3, 0, 0, 1] ![1, -2, 1, 0, 5] ⟨3 / 5, 4 / 5, 0⟩ (5 / 3) := hlle_opposite _ _ _ _

/-- The mirror image at a plane normal to the first axis. -/
def mirrored (P : Vec) : Vec := fun i => if i = 1 then -P i else P i

/-- **C55**: the mirrored problem has the mirrored flux: the fluxes of mass, energy and transverse momentum change
sign, that of normal momentum does not. -/
theorem hlle_mirrored (Pl Pr : Vec) (g : ℝ) (i : Fin 5) :
    hlle (mirrored Pr) (mirrored Pl) ⟨1, 0, 0⟩ g i =
      if i = 1 then hlle Pl Pr ⟨1, 0, 0⟩ g i else -hlle Pl Pr ⟨1, 0, 0⟩ g i := by
  have e0 : ∀ P : Vec, mirrored P 0 = P 0 := fun P => if_neg (by decide)
  have e1 : ∀ P : Vec, mirrored P 1 = -P 1 := fun P => if_pos rfl
  have e2 : ∀ P : Vec, mirrored P 2 = P 2 := fun P => if_neg (by decide)
  have e3 : ∀ P : Vec, mirrored P 3 = P 3 := fun P => if_neg (by decide)
  have e4 : ∀ P : Vec, mirrored P 4 = P 4 := fun P => if_neg (by decide)
  have hv : ∀ P : Vec, velocityAlong (mirrored P) ⟨1, 0, 0⟩ = -velocityAlong P ⟨1, 0, 0⟩ := fun P => by
    simp only [velocityAlong, UnitVec.project, e1, e2, e3]; ring
  have hw : ∀ P : Vec, wavespeeds (mirrored P) ⟨1, 0, 0⟩ g = (-(wavespeeds P ⟨1, 0, 0⟩ g).2, -(wavespeeds P ⟨1, 0, 0⟩ g).1) :=
    fun P => by simp only [wavespeeds, hv, soundSpeedSquared, e0, e4, Prod.mk.injEq]; constructor <;> ring
  have hU : ∀ (P : Vec) i, toConserved (mirrored P) g i = if i = 1 then -toConserved P g i else toConserved P g i := by
    intro P
    refine forall5 ?_ ?_ ?_ ?_ ?_ <;>
      simp only [toConserved, velocitySquared, at0, at1, at2, at3, at4, e0, e1, e2, e3, e4, neg_mul_neg]
    · rfl
    · exact (mul_neg _ _).trans (if_pos trivial).symm
    · rfl
    · rfl
    · rfl
  have hF : ∀ (P : Vec) i, flux (mirrored P) ⟨1, 0, 0⟩ g i =
      if i = 1 then flux P ⟨1, 0, 0⟩ g i else -flux P ⟨1, 0, 0⟩ g i := by
    intro P
    refine forall5 ?_ ?_ ?_ ?_ ?_ <;>
      simp only [flux, fluxWith, hv, hU, at0, at1, at2, at3, at4, e4]
    · simp
    · simp
    · simp
    · simp
    · simp; ring
  rw [hlle_eq, hlle_eq, hF, hF, hU, hU, hw, hw]
  dsimp only
  rw [max_neg_neg3, min_neg_neg3, min_comm (wavespeeds Pr _ g).1, max_comm (wavespeeds Pr _ g).2]
  by_cases h : i = 1
  · simp only [if_pos h]
    exact Hlle.core_swap _ _ _ _ _ _
  · simp only [if_neg h]
    exact Hlle.core_mirror _ _ _ _ _ _

example : hlle (mirrored ![1, -2, 1, 0, 5]) (mirrored ![4, 3, 0, 0, 1]) ⟨1, 0, 0⟩ (5 / 3) 0 =
    -hlle ![4, 3, 0, 0, 1] ![1, -2, 1, 0, 5] ⟨1, 0, 0⟩ (5 / 3) 0 :=
  (hlle_mirrored ![4, 3, 0, 0, 1] ![1, -2, 1, 0, 5] (5 / 3) 0).trans (if_neg (by decide))

/-! ## Positivity -/

/-- Conserved densities of a gas: positive density and internal energy. -/
def Admissible (U : Vec) : Prop := 0 < U 0 ∧ U 1 ^ 2 + U 2 ^ 2 + U 3 ^ 2 < 2 * U 0 * U 4

/-- That is the same as to have primitives with positive density and pressure. -/
theorem admissible_iff (U : Vec) (g : ℝ) (hg : 1 < g) : Admissible U ↔ Physical (recover U g 0) := by
  have hm : 0 < g - 1 := by linarith
  have hf : ∀ p d, floored p d 0 = p := fun p d => if_neg (by simp)
  simp only [Admissible, Physical, recover, hf, at0, at4]
  refine and_congr_right fun h => ?_
  rw [mul_pos_iff_of_pos_right hm, sub_pos, div_lt_iff₀ h]
  constructor <;> intro h <;> nlinarith

theorem admissible_toConserved {P : Vec} (h : Physical P) {g : ℝ} (hg : 1 < g) : Admissible (toConserved P g) := by
  rw [admissible_iff _ g hg, recover_toConserved P h g hg]
  exact h

theorem admissible_smul {U : Vec} (h : Admissible U) {s : ℝ} (hs : 0 < s) : Admissible (fun i => s * U i) := by
  refine ⟨mul_pos hs h.1, ?_⟩
  have := mul_lt_mul_of_pos_left h.2 (mul_pos hs hs)
  nlinarith

theorem admissible_add {U V : Vec} (hU : Admissible U) (hV : Admissible V) : Admissible (fun i => U i + V i) := by
  obtain ⟨u0, u⟩ := hU
  obtain ⟨v0, v⟩ := hV
  refine ⟨add_pos u0 v0, ?_⟩
  -- multiply with the densities
  have key : (U 0 * V 0) * ((U 1 + V 1) ^ 2 + (U 2 + V 2) ^ 2 + (U 3 + V 3) ^ 2) <
      (U 0 * V 0) * (2 * (U 0 + V 0) * (U 4 + V 4)) := by
    have h1 := mul_lt_mul_of_pos_left u (mul_pos v0 (add_pos u0 v0))
    have h2 := mul_lt_mul_of_pos_left v (mul_pos u0 (add_pos u0 v0))
    have s1 := sq_nonneg (V 0 * U 1 - U 0 * V 1)
    have s2 := sq_nonneg (V 0 * U 2 - U 0 * V 2)
    have s3 := sq_nonneg (V 0 * U 3 - U 0 * V 3)
    nlinarith
  exact lt_of_mul_lt_mul_left key (mul_pos u0 v0).le

/-- Seen from a frame that moves faster than sound, what the gas carries past is admissible. -/
theorem admissible_cone {P : Vec} (h : Physical P) {g : ℝ} (hg : 1 < g) (n : UnitVec ℝ) (hn : n.HasUnitLength) (w : ℝ)
    (s : ℝ) (hs : s = 1 ∨ s = -1)
    (hw : Real.sqrt (soundSpeedSquared P g) ≤ s * (w - velocityAlong P n)) :
    Admissible (fun i => s * (w * toConserved P g i - flux P n g i)) := by
  have hc := sound_pos h hg
  have hc2 : soundSpeedSquared P g ≤ (w - velocityAlong P n) ^ 2 := by
    have h2 := Real.sq_sqrt (Real.sqrt_pos.1 hc).le
    have h3 : (s * (w - velocityAlong P n)) ^ 2 = (w - velocityAlong P n) ^ 2 := by
      rcases hs with rfl | rfl <;> ring
    nlinarith
  obtain ⟨h0, h4⟩ := h
  have hm : 0 < g - 1 := by linarith
  have hs2 : s ^ 2 = 1 := by rcases hs with rfl | rfl <;> ring
  have hn' : n.n1 ^ 2 + n.n2 ^ 2 + n.n3 ^ 2 = 1 := hn
  rw [soundSpeedSquared, div_le_iff₀ h0] at hc2
  have hv : velocityAlong P n = P 1 * n.n1 + P 2 * n.n2 + P 3 * n.n3 := rfl
  set v := velocityAlong P n with hvdef
  simp only [Admissible, flux, fluxWith, toConserved, velocitySquared, ← hvdef, at0, at1, at2, at3, at4]
  constructor
  · have := mul_pos h0 (hc.trans_le hw)
    linarith [this, show s * (w * P 0 - v * P 0) = P 0 * (s * (w - v)) by ring]
  · have key : 0 < (w - v) ^ 2 * P 0 * (2 * (P 4 / (g - 1))) - P 4 ^ 2 := by
      have e : (w - v) ^ 2 * P 0 * (2 * (P 4 / (g - 1))) - P 4 ^ 2 =
          P 4 * (2 * ((w - v) ^ 2 * P 0) - P 4 * (g - 1)) / (g - 1) := by
        field_simp
      rw [e]
      refine div_pos (mul_pos h4 ?_) hm
      nlinarith
    have e : 2 * (s * (w * P 0 - v * P 0)) * (s * (w * (1 / 2 * P 0 * (P 1 * P 1 + P 2 * P 2 + P 3 * P 3) + P 4 / (g - 1)) -
          (v * (1 / 2 * P 0 * (P 1 * P 1 + P 2 * P 2 + P 3 * P 3) + P 4 / (g - 1)) + P 4 * v))) -
        ((s * (w * (P 0 * P 1) - (v * (P 0 * P 1) + P 4 * n.n1))) ^ 2 +
          (s * (w * (P 0 * P 2) - (v * (P 0 * P 2) + P 4 * n.n2))) ^ 2 +
          (s * (w * (P 0 * P 3) - (v * (P 0 * P 3) + P 4 * n.n3))) ^ 2) =
        s ^ 2 * ((w - v) ^ 2 * P 0 * (2 * (P 4 / (g - 1))) - P 4 ^ 2 * (n.n1 ^ 2 + n.n2 ^ 2 + n.n3 ^ 2)) +
          s ^ 2 * (2 * P 4 * (w - v) * P 0) * ((P 1 * n.n1 + P 2 * n.n2 + P 3 * n.n3) - v) := by
      ring
    rw [hs2, hn', ← hv] at e
    linarith

/-- The state between the outer waves is that of a gas. -/
theorem admissible_star {Pl Pr : Vec} (hl : Physical Pl) (hr : Physical Pr) {g : ℝ} (hg : 1 < g) (n : UnitVec ℝ)
    (hn : n.HasUnitLength) (ap am : ℝ) (hp : (wavespeeds Pr n g).2 ≤ ap) (hm : am ≤ (wavespeeds Pl n g).1) (h : am < ap) :
    Admissible (fun i => Hlle.star (flux Pl n g i) (flux Pr n g i) (toConserved Pl g i) (toConserved Pr g i) ap am) := by
  have h1 := admissible_cone hr hg n hn ap 1 (Or.inl rfl) (by simp only [wavespeeds] at hp; linarith)
  have h2 := admissible_cone hl hg n hn am (-1) (Or.inr rfl) (by simp only [wavespeeds] at hm; linarith)
  have h3 := admissible_smul (admissible_add h1 h2) (s := 1 / (ap - am)) (by
    apply one_div_pos.2; linarith)
  refine Eq.mp (congrArg Admissible (funext fun i => ?_)) h3
  simp only [Hlle.star]
  have : ap - am ≠ 0 := by linarith
  field_simp
  ring

/-- **C81**: A step of the first-order scheme keeps the gas a gas: the state in a cell between two others, changed by
the fluxes through its two faces, has positive density and pressure again if no wave crosses more than half of
the cell. -/
theorem hlle_positive (Pl P Pr : Vec) (hl : Physical Pl) (h : Physical P) (hr : Physical Pr) (g : ℝ) (hg : 1 < g)
    (n : UnitVec ℝ) (hn : n.HasUnitLength) (c : ℝ) (hc : 0 < c)
    (hcfl : ∀ Q ∈ [Pl, P, Pr], c * |(wavespeeds Q n g).1| < 1 / 2 ∧ c * |(wavespeeds Q n g).2| < 1 / 2) :
    Physical (recover (fun i => toConserved P g i - c * (hlle P Pr n g i - hlle Pl P n g i)) g 0) := by
  rw [← admissible_iff _ g hg]
  have hU := admissible_toConserved h hg
  -- the half next to the face on the right
  have half1 : Admissible (fun i => 1 / 2 * toConserved P g i - c * (hlle P Pr n g i - flux P n g i)) := by
    set ap := max 0 (max (wavespeeds P n g).2 (wavespeeds Pr n g).2) with hap
    set am := min 0 (min (wavespeeds P n g).1 (wavespeeds Pr n g).1) with ham
    have hlt : am < ap := speeds_lt Pr n h hg
    have hstar := admissible_star h hr hg n hn ap am ((le_max_right _ _).trans (le_max_right _ _))
      ((min_le_right _ _).trans (min_le_left _ _)) hlt
    have hcm : -c * am < 1 / 2 := by
      have h1 := (hcfl P (by simp)).1
      have h2 := (hcfl Pr (by simp)).1
      rw [ham]
      rcases min_choice (0 : ℝ) (min (wavespeeds P n g).1 (wavespeeds Pr n g).1) with e | e
      · rw [e]; norm_num
      · rw [e]
        rcases min_choice (wavespeeds P n g).1 (wavespeeds Pr n g).1 with e | e <;> rw [e]
        · nlinarith [neg_abs_le (wavespeeds P n g).1]
        · nlinarith [neg_abs_le (wavespeeds Pr n g).1]
    have ham0 : am ≤ 0 := min_le_left _ _
    have e : ∀ i, 1 / 2 * toConserved P g i - c * (hlle P Pr n g i - flux P n g i) =
        (1 / 2 + c * am) * toConserved P g i + -(c * am) *
          Hlle.star (flux P n g i) (flux Pr n g i) (toConserved P g i) (toConserved Pr g i) ap am := by
      intro i
      rw [hlle_eq, ← hap, ← ham, Hlle.core_star_left _ _ _ _ hlt]
      ring
    rw [funext e]
    have hA := admissible_smul hU (s := 1 / 2 + c * am) (by linarith)
    rcases eq_or_lt_of_le ham0 with h0 | h0
    · rw [h0] at hA ⊢
      simpa using hA
    · exact admissible_add hA (admissible_smul hstar (by nlinarith))
  -- the half next to the face on the left
  have half2 : Admissible (fun i => 1 / 2 * toConserved P g i + c * (hlle Pl P n g i - flux P n g i)) := by
    set ap := max 0 (max (wavespeeds Pl n g).2 (wavespeeds P n g).2) with hap
    set am := min 0 (min (wavespeeds Pl n g).1 (wavespeeds P n g).1) with ham
    have hlt : am < ap := speeds_lt P n hl hg
    have hstar := admissible_star hl h hg n hn ap am ((le_max_right _ _).trans (le_max_right _ _))
      ((min_le_right _ _).trans (min_le_left _ _)) hlt
    have hcm : c * ap < 1 / 2 := by
      have h1 := (hcfl Pl (by simp)).2
      have h2 := (hcfl P (by simp)).2
      rw [hap]
      rcases max_choice (0 : ℝ) (max (wavespeeds Pl n g).2 (wavespeeds P n g).2) with e | e
      · rw [e]; norm_num
      · rw [e]
        rcases max_choice (wavespeeds Pl n g).2 (wavespeeds P n g).2 with e | e <;> rw [e]
        · nlinarith [le_abs_self (wavespeeds Pl n g).2]
        · nlinarith [le_abs_self (wavespeeds P n g).2]
    have hap0 : 0 ≤ ap := le_max_left _ _
    have e : ∀ i, 1 / 2 * toConserved P g i + c * (hlle Pl P n g i - flux P n g i) =
        (1 / 2 - c * ap) * toConserved P g i + c * ap *
          Hlle.star (flux Pl n g i) (flux P n g i) (toConserved Pl g i) (toConserved P g i) ap am := by
      intro i
      rw [hlle_eq, ← hap, ← ham, Hlle.core_star_right _ _ _ _ hlt]
      ring
    rw [funext e]
    have hA := admissible_smul hU (s := 1 / 2 - c * ap) (by linarith)
    rcases eq_or_lt_of_le hap0 with h0 | h0
    · rw [← h0] at hA ⊢
      simpa using hA
    · exact admissible_add hA (admissible_smul hstar (by nlinarith))
  have := admissible_add half1 half2
  refine Eq.mp (congrArg Admissible (funext fun i => ?_)) this
  ring

/-! ## The Roe average -/

/-- **C56, what else is said of the average**: it does not depend on the order, it is the state itself for equal
states, and each quantity is between those of the two states. -/
theorem roe_between (Pl Pr : Vec) (hl : 0 < Pl 0) (hr : 0 < Pr 0) :
    roeAverage Pr Pl = roeAverage Pl Pr ∧ roeAverage Pl Pl = Pl ∧
      ∀ i, min (Pl i) (Pr i) ≤ roeAverage Pr Pl i ∧ roeAverage Pr Pl i ≤ max (Pl i) (Pr i) := by
  have kl := Real.sqrt_pos.2 hl
  have kr := Real.sqrt_pos.2 hr
  refine ⟨?_, ?_, fun i => ⟨?_, ?_⟩⟩
  · funext i
    simp only [roeAverage]
    rw [add_comm (Pr i * _), add_comm (Real.sqrt (Pr 0))]
  · funext i
    simp only [roeAverage]
    field_simp
  · simp only [roeAverage]
    rw [le_div_iff₀ (by linarith)]
    nlinarith [min_le_left (Pl i) (Pr i), min_le_right (Pl i) (Pr i)]
  · simp only [roeAverage]
    rw [div_le_iff₀ (by linarith)]
    nlinarith [le_max_left (Pl i) (Pr i), le_max_right (Pl i) (Pr i)]

example : min (4 : ℝ) 1 ≤ roeAverage ![1, -2, 1, 0, 5] ![4, 3, 0, 0, 1] 0 ∧
    roeAverage ![1, -2, 1, 0, 5] ![4, 3, 0, 0, 1] 0 ≤ max (4 : ℝ) 1 :=
  (roe_between ![4, 3, 0, 0, 1] ![1, -2, 1, 0, 5] (show (0 : ℝ) < 4 by norm_num) (show (0 : ℝ) < 1 by norm_num)).2.2 0

/-- What the Jacobian at the Roe average makes of the difference of the conserved densities. -/
noncomputable def roeProduct (Pl Pr : Vec) (g : ℝ) (i : Fin 5) : ℝ :=
  ∑ j, (formulas (roeAverage Pr Pl) g).fluxJacobian i j * (toConserved Pr g j - toConserved Pl g j)

/-- **C56, as far as it holds.** The Roe property holds for mass and momentum, and for energy if the velocities
are the same.  What is missing: `roe_violated`. -/
theorem roe_partial (Pl Pr : Vec) (hl : 0 < Pl 0) (hr : 0 < Pr 0) (g : ℝ) (hg : 1 < g) :
    (∀ i : Fin 5, i ≠ 4 → roeProduct Pl Pr g i = flux Pr ⟨1, 0, 0⟩ g i - flux Pl ⟨1, 0, 0⟩ g i) ∧
      (Pl 1 = Pr 1 → Pl 2 = Pr 2 → Pl 3 = Pr 3 →
        roeProduct Pl Pr g 4 = flux Pr ⟨1, 0, 0⟩ g 4 - flux Pl ⟨1, 0, 0⟩ g 4) := by
  have hm : g - 1 ≠ 0 := by linarith
  have kl := Real.sqrt_pos.2 hl
  have kr := Real.sqrt_pos.2 hr
  have el := Real.sq_sqrt hl.le
  have er := Real.sq_sqrt hr.le
  set a := Real.sqrt (Pl 0) with ha
  set b := Real.sqrt (Pr 0) with hb
  have hab : b + a ≠ 0 := by linarith
  have hQ : ∀ i, roeAverage Pr Pl i = (Pr i * b + Pl i * a) / (b + a) := fun _ => rfl
  have el' : Pl 0 = a ^ 2 := el.symm
  have er' : Pr 0 = b ^ 2 := er.symm
  clear_value a b
  clear ha hb el er
  constructor
  · refine forall5 ?_ ?_ ?_ ?_ ?_ <;> intro hi
    · simp only [roeProduct, Fin.sum_univ_five, Formulas.fluxJacobian, toConserved, flux, fluxWith, velocityAlong,
        UnitVec.project, at0, at1, at2, at3, at4]
      ring
    · simp only [roeProduct, Fin.sum_univ_five, Formulas.fluxJacobian, formulas, toConserved, flux, fluxWith, velocityAlong,
        velocitySquared, UnitVec.project, hQ, at0, at1, at2, at3, at4, el', er', soundSpeedSquared]
      field_simp
      ring
    · simp only [roeProduct, Fin.sum_univ_five, Formulas.fluxJacobian, formulas, toConserved, flux, fluxWith, velocityAlong,
        velocitySquared, UnitVec.project, hQ, at0, at1, at2, at3, at4, el', er']
      field_simp
      ring
    · simp only [roeProduct, Fin.sum_univ_five, Formulas.fluxJacobian, formulas, toConserved, flux, fluxWith, velocityAlong,
        velocitySquared, UnitVec.project, hQ, at0, at1, at2, at3, at4, el', er']
      field_simp
      ring
    · exact absurd rfl hi
  · intro h1 h2 h3
    have q : ∀ i, Pl i = Pr i → roeAverage Pr Pl i = Pr i := fun i hi => by
      simp only [hQ, hi]
      field_simp
    simp only [roeProduct, Fin.sum_univ_five, Formulas.fluxJacobian, formulas, toConserved, flux, fluxWith, velocityAlong,
      velocitySquared, UnitVec.project, at0, at1, at2, at3, at4, q 1 h1, q 2 h2, q 3 h3, h1, h2, h3]
    field_simp
    ring

example : roeProduct ![4, 3, 0, 0, 1] ![1, -2, 1, 0, 5] (5 / 3) 1 =
    flux ![1, -2, 1, 0, 5] ⟨1, 0, 0⟩ (5 / 3) 1 - flux ![4, 3, 0, 0, 1] ⟨1, 0, 0⟩ (5 / 3) 1 :=
  (roe_partial ![4, 3, 0, 0, 1] ![1, -2, 1, 0, 5] (show (0 : ℝ) < 4 by norm_num) (show (0 : ℝ) < 1 by norm_num) _
    (by norm_num)).1 1 (by decide)

/-- **C56 is violated**: the energy does not have the Roe property. -/
theorem roe_violated : ∃ (Pl Pr : Vec) (g : ℝ), Physical Pl ∧ Physical Pr ∧ 1 < g ∧
    roeProduct Pl Pr g 4 ≠ flux Pr ⟨1, 0, 0⟩ g 4 - flux Pl ⟨1, 0, 0⟩ g 4 := by
  refine ⟨![1, 0, 0, 0, 1], ![4, 1, 0, 0, 1], 2, ⟨by norm_num [at0], show (0 : ℝ) < 1 by norm_num⟩,
    ⟨show (0 : ℝ) < 4 by norm_num, show (0 : ℝ) < 1 by norm_num⟩, by norm_num, ?_⟩
  have s4 : Real.sqrt 4 = 2 := by
    rw [show (4 : ℝ) = 2 ^ 2 by norm_num]
    exact Real.sqrt_sq (by norm_num)
  simp only [roeProduct, Fin.sum_univ_five, Formulas.fluxJacobian, formulas, toConserved, flux, fluxWith, velocityAlong,
    velocitySquared, UnitVec.project, roeAverage, soundSpeedSquared, at0, at1, at2, at3, at4, s4, Real.sqrt_one]
  norm_num

/-- A cell between two others that meets the condition of `hlle_positive`. -/
example : ∃ c : ℝ, 0 < c ∧ ∀ Q ∈ [![1, 0, 0, 0, 1], ![4, 3, 0, 0, 1], (![1, -2, 1, 0, 5] : Vec)],
    c * |(wavespeeds Q ⟨1, 0, 0⟩ 2).1| < 1 / 2 ∧ c * |(wavespeeds Q ⟨1, 0, 0⟩ 2).2| < 1 / 2 := by
  have key : ∀ M : ℝ, ∀ x : ℝ, |x| ≤ M → 1 / (2 * (M + 1)) * |x| < 1 / 2 := by
    intro M x h
    have h0 : 0 ≤ M := (abs_nonneg x).trans h
    rw [div_mul_eq_mul_div, one_mul, div_lt_iff₀ (by linarith)]
    linarith
  let f : Vec → ℝ := fun Q => |(wavespeeds Q ⟨1, 0, 0⟩ 2).1| + |(wavespeeds Q ⟨1, 0, 0⟩ 2).2|
  have hf : ∀ Q, 0 ≤ f Q := fun Q => add_nonneg (abs_nonneg _) (abs_nonneg _)
  have h1 := hf ![1, 0, 0, 0, 1]
  have h2 := hf ![4, 3, 0, 0, 1]
  have h3 := hf ![1, -2, 1, 0, 5]
  refine ⟨1 / (2 * (f ![1, 0, 0, 0, 1] + f ![4, 3, 0, 0, 1] + f ![1, -2, 1, 0, 5] + 1)), by positivity, ?_⟩
  have hle : ∀ Q, |(wavespeeds Q ⟨1, 0, 0⟩ 2).1| ≤ f Q ∧ |(wavespeeds Q ⟨1, 0, 0⟩ 2).2| ≤ f Q := fun Q =>
    ⟨le_add_of_nonneg_right (abs_nonneg _), le_add_of_nonneg_left (abs_nonneg _)⟩
  intro Q hQ
  simp only [List.mem_cons, List.not_mem_nil, or_false] at hQ
  refine ⟨key _ _ ((hle Q).1.trans ?_), key _ _ ((hle Q).2.trans ?_)⟩ <;> rcases hQ with rfl | rfl | rfl <;> linarith

end Verif.Euler
