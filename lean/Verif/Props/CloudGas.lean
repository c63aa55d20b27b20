import Verif.Model.CloudGas
import Verif.Props.Cloud
import Verif.Props.SrhdRecover

/-!
# C91: rest mass and energy on the grid of the cloud program
-/

namespace Verif.Cloud

open Verif.Nd Verif.Sedov Geometry

/-- What is found on the way of a stage: the primitive quantities of each cell, the fluxes through the faces, and the sources. -/
structure Found (g : Gas) (inflow : ℝ → Vec 5 ℝ) (method : Int) (z : Fin 5 → Bool) (theta : ℝ) (m n : Nat) (r q : Nat → ℝ)
    (u p Fr Fq S : Nat → Nat → Vec 5 ℝ) : Prop where
  primitive : ∀ i, i < m → ∀ j, j < n → g.recover (fun a => u i j a / wedge (r i) (r (i + 1)) (q j) (q (j + 1))) = .ok (p i j)
  radial : ∀ i, i < m + 1 → ∀ j, j < n →
    g.riemann 0 (sides method z theta (m + 2) (column (inflow ((q j + q (j + 1)) / 2)) m fun k => p k j) i).1
      (sides method z theta (m + 2) (column (inflow ((q j + q (j + 1)) / 2)) m fun k => p k j) i).2 = .ok (Fr i j)
  polar : ∀ i, i < m → ∀ j, j < n - 1 → g.riemann 1 (sides method z theta n (p i) j).1 (sides method z theta n (p i) j).2 = .ok (Fq i j)
  source : ∀ i, i < m → ∀ j, j < n → g.source (p i j) ((r i + r (i + 1)) / 2) ((q j + q (j + 1)) / 2) = .ok (S i j)

/-- The content of the cells after a stage. -/
noncomputable def update (dt : ℝ) (n : Nat) (r q : Nat → ℝ) (u Fr Fq S : Nat → Nat → Vec 5 ℝ) (i j : Nat) : Vec 5 ℝ := fun a =>
  let G : Nat → Vec 5 ℝ := fun j => if j = 0 ∨ j = n then 0 else Fq i (j - 1)
  u i j a + dt * (Fr i j a * zone (r i) (q j) (q (j + 1)) - Fr (i + 1) j a * zone (r (i + 1)) (q j) (q (j + 1))
    + (G j a * cone (r i) (r (i + 1)) (q j) - G (j + 1) a * cone (r i) (r (i + 1)) (q (j + 1)))
    + S i j a * wedge (r i) (r (i + 1)) (q j) (q (j + 1)))

/-- What flows outwards through the sphere at a radius. -/
noncomputable def through (n : Nat) (R : ℝ) (q : Nat → ℝ) (F : Nat → Vec 5 ℝ) (a : Fin 5) : ℝ :=
  ∑ j ∈ Finset.range n, F j a * zone R (q j) (q (j + 1))

/-- What the cells contain. -/
def content (m n : Nat) (u : Nat → Nat → Vec 5 ℝ) (a : Fin 5) : ℝ := ∑ i ∈ Finset.range m, ∑ j ∈ Finset.range n, u i j a

variable {m n : Nat} {r q : Nat → ℝ}

theorem stage (g : Gas) (inflow : ℝ → Vec 5 ℝ) (method : Int) (z : Fin 5 → Bool) (theta : ℝ) (s : Solution) (dt : ℝ)
    (hme : method = 1 ∨ method = 2) (hm : 1 ≤ m) (hn : 2 ≤ n) (hn3 : method = 1 ∨ 3 ≤ n) (hmn : (m + 2) * (n + 1) < 2 ^ 31) (u : Nat → Nat → Vec 5 ℝ)
    (hr : Line s.radial (m + 1) r) (hq : Line s.polar (n + 1) q) (hu : Grid s.conserved m n u)
    (hV : ∀ i, i < m → ∀ j, j < n → wedge (r i) (r (i + 1)) (q j) (q (j + 1)) ≠ 0) (p Fr Fq S : Nat → Nat → Vec 5 ℝ)
    (h : Found g inflow method z theta m n r q u p Fr Fq S) :
    ∃ s', advance g inflow method z theta s dt = .ok s' ∧ s'.time = s.time + dt ∧ s'.radial = s.radial ∧ s'.polar = s.polar
      ∧ Grid s'.conserved m n (update dt n r q u Fr Fq S)
      ∧ ∀ a, (∀ i j, i < m → j < n → S i j a = 0) → content m n (update dt n r q u Fr Fq S) a
        = content m n u a + dt * (through n (r 0) q (Fr 0) a - through n (r m) q (Fr m) a) := by
  obtain ⟨s', u', G, h1, h2, h3, h4, h5, h6, h7, h8⟩ := advance_balance g inflow method z theta s dt hme hm hn hn3 hmn u hr hq hu hV p
    h.primitive Fr Fq S h.radial h.polar h.source
  have e : u' = update dt n r q u Fr Fq S := by
    funext i j a
    rw [h7, h6]
    rfl
  subst e
  refine ⟨s', h1, h2, h3, h4, h5, fun a ha => ?_⟩
  unfold content
  rw [h8 a]
  have : ∑ i ∈ Finset.range m, ∑ j ∈ Finset.range n, S i j a * wedge (r i) (r (i + 1)) (q j) (q (j + 1)) = 0 :=
    Finset.sum_eq_zero fun i hi => Finset.sum_eq_zero fun j hj => by
      rw [ha i j (Finset.mem_range.mp hi) (Finset.mem_range.mp hj), zero_mul]
  rw [this, add_zero]
  rfl

/-- A difference of zero on one side makes a slope of zero. -/
theorem slope_outer (z : Fin 5 → Bool) (theta : ℝ) (x y : Vec 5 ℝ) : Plm.plmGradientSeq z z z theta x y y = 0 := by
  funext a
  unfold Plm.plmGradientSeq Plm.plmGradient Plm.minabs
  dsimp only
  rw [sub_self, zero_mul, abs_zero, min_eq_right (le_min (abs_nonneg _) (abs_nonneg _)), mul_zero]
  rfl

/-- The states on both sides of the outermost face are those of the outermost cell. -/
theorem sides_outer (method : Int) (z : Fin 5 → Bool) (theta : ℝ) (first : Vec 5 ℝ) (hm : 1 ≤ m) (p : Nat → Vec 5 ℝ) :
    sides method z theta (m + 2) (column first m p) m = (p (m - 1), p (m - 1)) := by
  have c0 : column first m p m = p (m - 1) := by
    unfold column
    rw [if_neg (by omega), min_self]
  have c1 : column first m p (m + 1) = p (m - 1) := by
    unfold column
    rw [if_neg (by omega), min_eq_right (by omega)]
  have s0 : slope z theta (m + 2) (column first m p) m = 0 := by
    unfold slope
    rw [if_neg (by omega), c0, c1, slope_outer]
  have s1 : slope z theta (m + 2) (column first m p) (m + 1) = 0 := by
    unfold slope
    rw [if_pos (by omega)]
  unfold sides
  rw [c0, c1, s0, s1]
  split_ifs
  · rfl
  · refine Prod.ext ?_ ?_
    · funext a
      show p (m - 1) a + 0 / 2 = _
      ring
    · funext a
      show p (m - 1) a - 0 / 2 = _
      ring

/-- For the gas of the program: no sources of mass and energy, and the flux out of the grid is the flux of the outermost cell. -/
theorem found_facts {T : ℝ} {inflow : ℝ → Vec 5 ℝ} {method : Int} {z : Fin 5 → Bool} {theta : ℝ} {u p Fr Fq S : Nat → Nat → Vec 5 ℝ}
    (hm : 1 ≤ m) (h : Found (srhd T) inflow method z theta m n r q u p Fr Fq S) :
    (∀ i j, i < m → j < n → S i j 0 = 0 ∧ S i j 4 = 0) ∧ (∀ i j, i < m → j < n → Srhd.Physical (p i j))
      ∧ ∀ j, j < n → Fr m j = Srhd.flux (p (m - 1) j) ⟨1, 0, 0⟩ (4 / 3) := by
  have hphys : ∀ i j, i < m → j < n → Srhd.Physical (p i j) := fun i j hi hj => (Srhd.recover_physical _ _ _ _ (h.primitive i hi j hj)).1
  refine ⟨fun i j hi hj => ?_, hphys, fun j hj => ?_⟩
  · have := h.source i hi j hj
    unfold srhd at this
    dsimp only at this
    split_ifs at this with h0
    injection this with this
    rw [← this]
    exact ⟨rfl, rfl⟩
  · have := h.radial m (by omega) j hj
    rw [sides_outer method z theta _ hm] at this
    unfold srhd at this
    dsimp only at this
    rw [if_pos rfl] at this
    split_ifs at this with h0
    injection this with this
    rw [← this]
    exact Srhd.hlle_consistent _ (hphys _ _ (by omega) hj) _ (by unfold Srhd.UnitLength; norm_num) _ (by norm_num) (by norm_num)

theorem through_congr {R : ℝ} {F F' : Nat → Vec 5 ℝ} (h : ∀ j, j < n → F j = F' j) (a : Fin 5) : through n R q F a = through n R q F' a := by
  unfold through
  exact Finset.sum_congr rfl fun j hj => by rw [h j (Finset.mem_range.mp hj)]

/-- **C91, first order.** Rest mass (component 0) and energy (component 4) change only by what flows in at the inner radius, and by
what flows out of the outermost cells. -/
theorem budget_first_order (T : ℝ) (inflow : ℝ → ℝ → Vec 5 ℝ) (method : Int) (z : Fin 5 → Bool) (theta cfl : ℝ) (s : Solution)
    (hme : method = 1 ∨ method = 2) (hm : 1 ≤ m) (hn : 2 ≤ n) (hn3 : method = 1 ∨ 3 ≤ n) (hmn : (m + 2) * (n + 1) < 2 ^ 31) (u : Nat → Nat → Vec 5 ℝ)
    (hr : Line s.radial (m + 1) r) (hq : Line s.polar (n + 1) q) (hu : Grid s.conserved m n u)
    (hV : ∀ i, i < m → ∀ j, j < n → wedge (r i) (r (i + 1)) (q j) (q (j + 1)) ≠ 0) (p Fr Fq S : Nat → Nat → Vec 5 ℝ)
    (h : Found (srhd T) (inflow s.time) method z theta m n r q u p Fr Fq S) :
    ∃ s' u' dt, dt = (r 1 - r 0) * cfl ∧ nextSolution (srhd T) inflow method z theta cfl 1 s = .ok s' ∧ s'.time = s.time + dt
      ∧ s'.radial = s.radial ∧ s'.polar = s.polar ∧ Grid s'.conserved m n u'
      ∧ ∀ a, a = 0 ∨ a = 4 → content m n u' a = content m n u a
        + dt * (through n (r 0) q (Fr 0) a - through n (r m) q (fun j => Srhd.flux (p (m - 1) j) ⟨1, 0, 0⟩ (4 / 3)) a) := by
  have b1 : m + 2 ≤ (m + 2) * (n + 1) := Nat.le_mul_of_pos_right _ (by omega)
  obtain ⟨D, e1, hD⟩ := hr.difference (by omega)
  obtain ⟨s', e2, h2, h3, h4, h5, h6⟩ := stage (srhd T) (inflow s.time) method z theta s ((r 1 - r 0) * cfl) hme hm hn hn3 hmn u hr hq hu hV p Fr Fq S h
  obtain ⟨f1, _, f3⟩ := found_facts hm h
  refine ⟨s', _, _, rfl, ?_, h2, h3, h4, h5, fun a ha => ?_⟩
  · unfold nextSolution
    rw [e1, Outcome.bind_ok, hD.2 0 (by omega), Outcome.bind_ok]
    dsimp only
    rw [if_pos rfl, e2]
  · rw [h6 a (fun i j hi hj => by rcases ha with rfl | rfl; exacts [(f1 i j hi hj).1, (f1 i j hi hj).2]), through_congr f3]

/-- **C91, second order.** The same, with the mean of the flows of the two stages. -/
theorem budget_second_order (T : ℝ) (inflow : ℝ → ℝ → Vec 5 ℝ) (method : Int) (z : Fin 5 → Bool) (theta cfl : ℝ) (s : Solution)
    (hme : method = 1 ∨ method = 2) (hm : 1 ≤ m) (hn : 2 ≤ n) (hn3 : method = 1 ∨ 3 ≤ n) (hmn : (m + 2) * (n + 1) < 2 ^ 31) (u : Nat → Nat → Vec 5 ℝ)
    (hr : Line s.radial (m + 1) r) (hq : Line s.polar (n + 1) q) (hu : Grid s.conserved m n u)
    (hV : ∀ i, i < m → ∀ j, j < n → wedge (r i) (r (i + 1)) (q j) (q (j + 1)) ≠ 0) (p Fr Fq S p1 Fr1 Fq1 S1 : Nat → Nat → Vec 5 ℝ)
    (dt : ℝ) (hdt : dt = (r 1 - r 0) * cfl)
    (h : Found (srhd T) (inflow s.time) method z theta m n r q u p Fr Fq S)
    (h1 : Found (srhd T) (inflow s.time) method z theta m n r q (update dt n r q u Fr Fq S) p1 Fr1 Fq1 S1) :
    ∃ s' u', nextSolution (srhd T) inflow method z theta cfl 2 s = .ok s' ∧ s'.time = s.time + dt
      ∧ s'.radial = s.radial ∧ s'.polar = s.polar ∧ Grid s'.conserved m n u'
      ∧ ∀ a, a = 0 ∨ a = 4 → content m n u' a = content m n u a
        + dt * ((through n (r 0) q (Fr 0) a + through n (r 0) q (Fr1 0) a) / 2
          - (through n (r m) q (fun j => Srhd.flux (p (m - 1) j) ⟨1, 0, 0⟩ (4 / 3)) a
            + through n (r m) q (fun j => Srhd.flux (p1 (m - 1) j) ⟨1, 0, 0⟩ (4 / 3)) a) / 2) := by
  have b1 : m + 2 ≤ (m + 2) * (n + 1) := Nat.le_mul_of_pos_right _ (by omega)
  have b3 : m * n < 2 ^ 31 := lt_of_le_of_lt (Nat.mul_le_mul (by omega) (by omega)) hmn
  obtain ⟨D, e1, hD⟩ := hr.difference (by omega)
  obtain ⟨s1, e2, t2, r2, q2, g2, c2⟩ := stage (srhd T) (inflow s.time) method z theta s dt hme hm hn hn3 hmn u hr hq hu hV p Fr Fq S h
  obtain ⟨s2, e3, t3, r3, q3, g3, c3⟩ := stage (srhd T) (inflow s.time) method z theta s1 dt hme hm hn hn3 hmn _ (r2 ▸ hr) (q2 ▸ hq) g2 hV
    p1 Fr1 Fq1 S1 h1
  obtain ⟨A, e4, hA⟩ := (hu.map fun x => scale x (1 / 2)).evaluate hm (by omega) b3
  obtain ⟨B, e5, hB⟩ := (g3.map fun x => scale x (1 / 2)).evaluate hm (by omega) b3
  obtain ⟨C, e6, hC⟩ := hA.binaryOp hB (· + ·)
  obtain ⟨E, e7, hE⟩ := hC.evaluate hm (by omega) b3
  obtain ⟨f1, _, f3⟩ := found_facts hm h
  obtain ⟨k1, _, k3⟩ := found_facts hm h1
  refine ⟨⟨s.time * (1 / 2) + s2.time * (1 / 2), s.radial, s.polar, E⟩, _, ?_, ?_, rfl, rfl, hE, fun a ha => ?_⟩
  · unfold nextSolution
    rw [e1, Outcome.bind_ok, hD.2 0 (by omega), Outcome.bind_ok]
    dsimp only
    rw [if_neg (by norm_num), if_pos rfl, show r (0 + 1) = r 1 from rfl, ← hdt, e2, Outcome.bind_ok, e3, Outcome.bind_ok, e4, Outcome.bind_ok, e5, Outcome.bind_ok, e6, Outcome.bind_ok, e7,
      Outcome.bind_ok]
  · show s.time * (1 / 2) + s2.time * (1 / 2) = _
    rw [t3, t2]
    ring
  · have hz : ∀ i j, i < m → j < n → S i j a = 0 := fun i j hi hj => by
      rcases ha with rfl | rfl
      exacts [(f1 i j hi hj).1, (f1 i j hi hj).2]
    have hz1 : ∀ i j, i < m → j < n → S1 i j a = 0 := fun i j hi hj => by
      rcases ha with rfl | rfl
      exacts [(k1 i j hi hj).1, (k1 i j hi hj).2]
    have hc : content m n (fun i j => scale (u i j) (1 / 2) + scale (update dt n r q (update dt n r q u Fr Fq S) Fr1 Fq1 S1 i j) (1 / 2)) a
        = content m n u a * (1 / 2) + content m n (update dt n r q (update dt n r q u Fr Fq S) Fr1 Fq1 S1) a * (1 / 2) := by
      unfold content
      simp only [Pi.add_apply, scale, Finset.sum_add_distrib, ← Finset.sum_mul]
    rw [hc, c3 a hz1, c2 a hz, through_congr f3, through_congr k3]
    ring

/-! ## Examples -/

namespace Example

/-- Radii 1, 2, 3, and three cells from pole to pole. -/
noncomputable def radius (i : Nat) : ℝ := i + 1
noncomputable def angle (j : Nat) : ℝ := j * (Real.pi / 3)

theorem wedge_pos (i j : Nat) (hj : j < 3) : 0 < wedge (radius i) (radius (i + 1)) (angle j) (angle (j + 1)) := by
  have hpi := Real.pi_pos
  have hc : Real.cos (angle (j + 1)) < Real.cos (angle j) := by
    refine Real.cos_lt_cos_of_nonneg_of_le_pi (by unfold angle; positivity) ?_ ?_
    · unfold angle
      have : ((j + 1 : Nat) : ℝ) ≤ 3 := by exact_mod_cast hj
      calc ((j + 1 : Nat) : ℝ) * (Real.pi / 3) ≤ 3 * (Real.pi / 3) := mul_le_mul_of_nonneg_right this (by positivity)
        _ = Real.pi := by ring
    · unfold angle
      push_cast
      linarith
  have hr : radius i ^ 3 < radius (i + 1) ^ 3 := pow_lt_pow_left₀ (by unfold radius; push_cast; linarith) (by unfold radius; positivity) (by norm_num)
  unfold wedge
  exact mul_pos (mul_pos (by positivity) (by linarith)) (by linarith)

/-- Gas at rest. -/
noncomputable def rest : Vec 5 ℝ := ![1, 0, 0, 0, 1]

theorem rest_physical : Srhd.Physical rest := ⟨one_pos, one_pos⟩

theorem rest_sides (method : Int) (z : Fin 5 → Bool) (theta : ℝ) (k i : Nat) : sides method z theta k (fun _ => rest) i = (rest, rest) := by
  have hs : ∀ i, slope z theta k (fun _ => rest) i = 0 := by
    intro i
    unfold slope
    split_ifs
    · rfl
    · exact slope_outer z theta rest rest
  unfold sides
  split_ifs
  · rfl
  · rw [hs, hs]
    refine Prod.ext ?_ ?_
    · funext a
      show rest a + 0 / 2 = _
      ring
    · funext a
      show rest a - 0 / 2 = _
      ring

theorem rest_column (m k : Nat) : column rest m (fun _ => rest) k = rest := by
  unfold column
  split_ifs <;> rfl

theorem rest_riemann (a : Fin 2) : (srhd 0).riemann a rest rest
    = .ok (Srhd.hlle rest rest (if a = 0 then ⟨1, 0, 0⟩ else ⟨0, 1, 0⟩) (4 / 3)) := by
  refine if_pos ⟨one_pos, zero_le_one, one_pos, zero_le_one, ne_of_lt ?_⟩
  exact Srhd.speeds_lt rest _ (by unfold Srhd.UnitLength; split_ifs <;> norm_num) rest_physical (by norm_num) (by norm_num)

/-- Gas at rest meets the hypotheses of `budget_first_order`, with both methods. -/
theorem rest_found (method : Int) (z : Fin 5 → Bool) (theta : ℝ) :
    Found (srhd 0) (fun _ => rest) method z theta 2 3 radius angle
      (fun i j a => Srhd.toConserved rest (4 / 3) a * wedge (radius i) (radius (i + 1)) (angle j) (angle (j + 1))) (fun _ _ => rest)
      (fun _ _ => Srhd.hlle rest rest ⟨1, 0, 0⟩ (4 / 3)) (fun _ _ => Srhd.hlle rest rest ⟨0, 1, 0⟩ (4 / 3))
      (fun i j => Srhd.sphericalSource rest ((radius i + radius (i + 1)) / 2) (Real.tan (Real.pi / 2 - (angle j + angle (j + 1)) / 2)) (4 / 3)) := by
  constructor
  · intro i hi j hj
    have hV := wedge_pos i j hj
    generalize wedge (radius i) (radius (i + 1)) (angle j) (angle (j + 1)) = V at hV
    rw [show (fun a => Srhd.toConserved rest (4 / 3) a * V / V) = Srhd.toConserved rest (4 / 3) from by
      funext a
      field_simp]
    exact Srhd.recover_rest _ rest_physical rfl rfl rfl _ (by norm_num) 0 (by rw [zero_mul]; exact zero_le_one)
  · intro i hi j hj
    have : (column rest 2 fun _ => rest) = fun _ => rest := funext fun k => rest_column 2 k
    rw [this, rest_sides]
    exact rest_riemann 0
  · intro i hi j hj
    rw [rest_sides]
    exact rest_riemann 1
  · intro i hi j hj
    refine if_neg (ne_of_gt ?_)
    unfold radius
    positivity

/-- The program's own second-order reconstruction of gas at rest: the step is taken, and keeps mass and energy. -/
example (z : Fin 5 → Bool) : ∃ s' u', nextSolution (srhd 0) (fun _ _ => rest) 2 z (6 / 5) (2 / 5) 1
      ⟨0, ⟨fun _ => 3, fun i => .ok (radius (i 0))⟩, ⟨fun _ => 4, fun i => .ok (angle (i 0))⟩, ⟨![2, 3], fun i => .ok fun a =>
        Srhd.toConserved rest (4 / 3) a * wedge (radius (i 0)) (radius (i 0 + 1)) (angle (i 1)) (angle (i 1 + 1))⟩⟩ = .ok s'
    ∧ Grid s'.conserved 2 3 u' ∧ content 2 3 u' 0 = content 2 3 (fun i j a =>
      Srhd.toConserved rest (4 / 3) a * wedge (radius i) (radius (i + 1)) (angle j) (angle (j + 1))) 0 := by
  obtain ⟨s', u', dt, hdt, h1, _, _, _, h5, h6⟩ := budget_first_order (m := 2) (n := 3) (r := radius) (q := angle) 0 (fun _ _ => rest) 2 z (6 / 5) (2 / 5)
      ⟨0, ⟨fun _ => 3, fun i => .ok (radius (i 0))⟩, ⟨fun _ => 4, fun i => .ok (angle (i 0))⟩, ⟨![2, 3], fun i => .ok fun a =>
        Srhd.toConserved rest (4 / 3) a * wedge (radius (i 0)) (radius (i 0 + 1)) (angle (i 1)) (angle (i 1 + 1))⟩⟩
      (Or.inr rfl) (by omega) (by omega) (Or.inr (by omega)) (by norm_num) _ ⟨rfl, fun _ _ => rfl⟩ ⟨rfl, fun _ _ => rfl⟩ ⟨rfl, rfl, fun _ _ _ _ => rfl⟩
      (fun i _ j hj => (wedge_pos i j hj).ne') _ _ _ _ (rest_found 2 z (6 / 5))
  refine ⟨s', u', h1, h5, ?_⟩
  have hv : Srhd.betaAlong rest ⟨1, 0, 0⟩ = 0 := by
    unfold Srhd.betaAlong UnitVec.project rest
    simp
  have hf : Srhd.flux rest ⟨1, 0, 0⟩ (4 / 3) 0 = 0 := by
    show Srhd.betaAlong rest ⟨1, 0, 0⟩ * _ = 0
    rw [hv, zero_mul]
  have hh : Srhd.hlle rest rest ⟨1, 0, 0⟩ (4 / 3) 0 = 0 := by
    rw [Srhd.hlle_consistent _ rest_physical _ (by unfold Srhd.UnitLength; norm_num) _ (by norm_num) (by norm_num), hf]
  rw [h6 0 (Or.inl rfl)]
  unfold through
  simp only [hh, hf, zero_mul, Finset.sum_const_zero, sub_zero, mul_zero, add_zero]
  rfl

end Example

end Verif.Cloud
