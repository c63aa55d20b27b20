import Verif.Spec.Cloud
import Verif.Lemmas.Grids
import Mathlib.Analysis.SpecialFunctions.Integrals.Basic

/-!
# C65, C69: the spherical grid of the cloud program
-/

namespace Verif.Cloud

open Verif.Nd Verif.Sedov

variable {m n : Nat} {rv qv : Arr 1 ℝ} {r q : Nat → ℝ}

theorem mesh (hr : Line rv m r) (hq : Line qv n q) (hm : m < 2 ^ 31) (hn : n < 2 ^ 31) :
    Grid (meshgrid rv qv).1 m n (fun i _ => r i) ∧ Grid (meshgrid rv qv).2 m n (fun _ j => q j) :=
  ⟨(hr.product hq hm hn).map Prod.fst, (hr.product hq hm hn).map Prod.snd⟩

theorem cellVolumes_grid (hr : Line rv (m + 1) r) (hq : Line qv (n + 1) q) (hm : m + 1 < 2 ^ 31) (hn : n + 1 < 2 ^ 31) :
    ∃ V, cellVolumes rv qv = .ok V ∧ Grid V m n (fun i j => wedge (r i) (r (i + 1)) (q j) (q (j + 1))) := by
  obtain ⟨h1, h2⟩ := mesh hr hq hm hn
  obtain ⟨dr, e1, hdr⟩ := (h1.map fun x => x * x * x).difference0 (by omega) (by omega)
  obtain ⟨dv, e2, hdv⟩ := hdr.midpoint1 (by omega) (by omega)
  obtain ⟨dq, e3, hdq⟩ := (h2.map fun x => -Real.cos x).difference1 (by omega) (by omega)
  obtain ⟨dm, e4, hdm⟩ := hdq.midpoint0 (by omega) (by omega)
  obtain ⟨A, e5, hA⟩ := hdv.binaryOp hdm (· * ·)
  refine ⟨_, ?_, (hA.map fun x => x * 2 * Real.pi / 3).congr rfl rfl fun i _ j _ => ?_⟩
  · unfold cellVolumes
    dsimp only
    rw [e1, Outcome.bind_ok, e2, Outcome.bind_ok, e3, Outcome.bind_ok, e4, Outcome.bind_ok, e5, Outcome.map_ok]
  · unfold wedge
    ring

theorem radialFaceAreas_grid (hr : Line rv m r) (hq : Line qv (n + 1) q) (hm : m < 2 ^ 31) (hn : n + 1 < 2 ^ 31) :
    ∃ V, radialFaceAreas rv qv = .ok V ∧ Grid V m n (fun i j => zone (r i) (q j) (q (j + 1))) := by
  obtain ⟨h1, h2⟩ := mesh hr hq hm hn
  obtain ⟨rc, e1, hrc⟩ := h1.midpoint1 (by omega) (by omega)
  obtain ⟨dm, e2, hdm⟩ := (h2.map fun x => -Real.cos x).difference1 (by omega) (by omega)
  obtain ⟨rr, e3, hrr⟩ := hrc.binaryOp hrc (· * ·)
  obtain ⟨A, e4, hA⟩ := hrr.binaryOp hdm (· * ·)
  refine ⟨_, ?_, (hA.map fun x => x * 2 * Real.pi).congr rfl rfl fun i _ j _ => ?_⟩
  · unfold radialFaceAreas
    dsimp only
    rw [e1, Outcome.bind_ok, e2, Outcome.bind_ok, e3, Outcome.bind_ok, e4, Outcome.map_ok]
  · unfold zone
    ring

theorem polarFaceAreas_grid (hr : Line rv (m + 1) r) (hq : Line qv n q) (hm : m + 1 < 2 ^ 31) (hn : n < 2 ^ 31) :
    ∃ V, polarFaceAreas rv qv = .ok V ∧ Grid V m n (fun i j => cone (r i) (r (i + 1)) (q j)) := by
  obtain ⟨h1, h2⟩ := mesh hr hq hm hn
  obtain ⟨dr, e1, hdr⟩ := h1.difference0 (by omega) (by omega)
  obtain ⟨rc, e2, hrc⟩ := h1.midpoint0 (by omega) (by omega)
  obtain ⟨qc, e3, hqc⟩ := h2.midpoint0 (by omega) (by omega)
  obtain ⟨rr, e4, hrr⟩ := hrc.binaryOp hdr (· * ·)
  obtain ⟨A, e5, hA⟩ := hrr.binaryOp (hqc.map Real.sin) (· * ·)
  refine ⟨_, ?_, (hA.map fun x => x * 2 * Real.pi).congr rfl rfl fun i _ j _ => ?_⟩
  · unfold polarFaceAreas
    dsimp only
    rw [e1, Outcome.bind_ok, e2, Outcome.bind_ok, e3, Outcome.bind_ok, e4, Outcome.bind_ok, e5, Outcome.map_ok]
  · unfold cone
    rw [show (q j + q j) / 2 = q j by ring]
    ring

theorem cellCentroids_grid (hr : Line rv (m + 1) r) (hq : Line qv (n + 1) q) (hm : m + 1 < 2 ^ 31) (hn : n + 1 < 2 ^ 31) :
    ∃ C, cellCentroids rv qv = .ok C ∧ Grid C m n (fun i j => ((r i + r (i + 1)) / 2, (q j + q (j + 1)) / 2)) := by
  obtain ⟨rc, e1, hrc⟩ := hr.midpoint (by omega)
  obtain ⟨qc, e2, hqc⟩ := hq.midpoint (by omega)
  refine ⟨_, ?_, hrc.product hqc (by omega) (by omega)⟩
  unfold cellCentroids
  rw [e1, Outcome.bind_ok, e2, Outcome.map_ok]

/-- **C69.** Volumes and areas are the integrals over cells and faces; over all polar angles the volumes add up to
that of the shell, and the areas at each radius to that of the sphere. -/
theorem geometry_exact (hr : Line rv (m + 1) r) (hq : Line qv (n + 1) q) (hm : m + 1 < 2 ^ 31) (hn : n + 1 < 2 ^ 31) (hm1 : 1 ≤ m) (hn1 : 1 ≤ n) :
    ∃ V A B v a b, cellVolumes rv qv = .ok V ∧ radialFaceAreas rv qv = .ok A ∧ polarFaceAreas rv qv = .ok B
      ∧ Grid V m n v ∧ Grid A (m + 1) n a ∧ Grid B m (n + 1) b
      ∧ (∀ i j, v i j = ∫ x in r i..r (i + 1), ∫ t in q j..q (j + 1), 2 * Real.pi * x ^ 2 * Real.sin t)
      ∧ (∀ i j, a i j = ∫ t in q j..q (j + 1), 2 * Real.pi * r i ^ 2 * Real.sin t)
      ∧ (∀ i j, b i j = ∫ x in r i..r (i + 1), 2 * Real.pi * x * Real.sin (q j))
      ∧ (q 0 = 0 → q n = Real.pi → sum V = .ok (4 / 3 * Real.pi * (r m ^ 3 - r 0 ^ 3))
        ∧ ∀ i, ∑ j ∈ Finset.range n, a i j = 4 * Real.pi * r i ^ 2) := by
  obtain ⟨V, e1, hV⟩ := cellVolumes_grid hr hq hm hn
  obtain ⟨A, e2, hA⟩ := radialFaceAreas_grid hr hq hm hn
  obtain ⟨B, e3, hB⟩ := polarFaceAreas_grid hr hq hm hn
  have ha : ∀ i j, zone (r i) (q j) (q (j + 1)) = ∫ t in q j..q (j + 1), 2 * Real.pi * r i ^ 2 * Real.sin t := by
    intro i j
    rw [intervalIntegral.integral_const_mul, integral_sin]
    rfl
  have hsum : ∑ j ∈ Finset.range n, (Real.cos (q j) - Real.cos (q (j + 1))) = Real.cos (q 0) - Real.cos (q n) :=
    Finset.sum_range_sub' (fun j => Real.cos (q j)) n
  refine ⟨V, A, B, _, _, _, e1, e2, e3, hV, hA, hB, fun i j => ?_, ha, fun i j => ?_, fun h0 hpi => ⟨?_, fun i => ?_⟩⟩
  · have : ∀ x : ℝ, (∫ t in q j..q (j + 1), 2 * Real.pi * x ^ 2 * Real.sin t)
        = x ^ 2 * (2 * Real.pi * (Real.cos (q j) - Real.cos (q (j + 1)))) := by
      intro x
      rw [intervalIntegral.integral_const_mul, integral_sin]
      ring
    simp only [this]
    rw [intervalIntegral.integral_mul_const, integral_pow]
    unfold wedge
    push_cast
    ring
  · have : ∀ x : ℝ, 2 * Real.pi * x * Real.sin (q j) = x * (2 * Real.pi * Real.sin (q j)) := fun x => by ring
    simp only [this]
    rw [intervalIntegral.integral_mul_const, integral_id]
    unfold cone
    ring
  · rw [hV.sum hm1 hn1 (by omega) (by omega)]
    refine congrArg _ ?_
    unfold wedge
    simp only [← Finset.mul_sum, hsum, ← Finset.sum_mul]
    rw [Finset.sum_range_sub (fun k => r k ^ 3) m, h0, hpi, Real.cos_zero, Real.cos_pi]
    ring
  · unfold zone
    rw [← Finset.mul_sum, hsum, h0, hpi, Real.cos_zero, Real.cos_pi]
    ring

/-- Two shells of three sectors from pole to pole. -/
example : ∃ V, cellVolumes ⟨fun _ => 3, fun i => .ok (i 0 + 1 : ℝ)⟩ ⟨fun _ => 4, fun i => .ok (i 0 * (Real.pi / 3))⟩ = .ok V ∧
    sum V = .ok (4 / 3 * Real.pi * (3 ^ 3 - 1 ^ 3)) := by
  obtain ⟨V, _, _, _, _, _, h1, _, _, _, _, _, _, _, _, h2⟩ := geometry_exact (m := 2) (n := 3)
    (rv := ⟨fun _ => 3, fun i => .ok (i 0 + 1 : ℝ)⟩) (qv := ⟨fun _ => 4, fun i => .ok (i 0 * (Real.pi / 3))⟩)
    (r := fun k => (k : ℝ) + 1) (q := fun k => (k : ℝ) * (Real.pi / 3)) ⟨rfl, fun _ _ => rfl⟩ ⟨rfl, fun _ _ => rfl⟩
    (by norm_num) (by norm_num) (by norm_num) (by norm_num)
  refine ⟨V, h1, ((h2 (by norm_num) (by push_cast; ring)).1).trans ?_⟩
  norm_num

/-! ## States at faces -/

theorem extrapolate0 {A : Arr 2 (Vec 5 ℝ)} {p : Nat → Nat → Vec 5 ℝ} {method : Int} (z : Fin 5 → Bool) (theta : ℝ) (h : Grid A (m + 1) n p)
    (h1 : 2 ≤ m) (hn : 1 ≤ n) (hmn : (m + 1) * n < 2 ^ 31) :
    ∃ E, extrapolate method z theta 0 A = .ok E ∧ Grid E m n (fun i j => sides method z theta (m + 1) (fun k => p k j) i) := by
  have hm : m + 1 ≤ (m + 1) * n := Nat.le_mul_of_pos_right _ hn
  have hn2 : n ≤ (m + 1) * n := Nat.le_mul_of_pos_left _ (Nat.succ_pos m)
  unfold extrapolate sides
  split_ifs with hme
  · exact h.zip2_0 (by omega) (by omega)
  · obtain ⟨k, rfl⟩ : ∃ k, m = k + 1 := ⟨m - 1, by omega⟩
    obtain ⟨T, e1, hT⟩ := h.zip3_0 (m := k) (by omega) (by omega)
    obtain ⟨E, e2, hE⟩ := (hT.map fun x => Plm.plmGradientSeq z z z theta x.1 x.2.1 x.2.2).extendZeros0 (by omega) (by omega) (by omega)
    have hE' : Grid E (k + 2) n (fun i j => slope z theta (k + 1 + 1) (fun k => p k j) i) := by
      refine hE.congr rfl rfl fun i hi j hj => ?_
      unfold slope
      by_cases hc : i = 0 ∨ i = k + 1
      · rw [if_pos hc, if_pos (by omega)]
      · rw [if_neg hc, if_neg (by omega), show i - 1 + 1 = i by omega, show i - 1 + 2 = i + 1 by omega]
    obtain ⟨G, e3, hG⟩ := hE'.evaluate (by omega) hn hmn
    obtain ⟨PL, e4, hPL⟩ := h.dropFinal0 (by omega) (by omega)
    obtain ⟨gL, e5, hgL⟩ := Grid.dropFinal0 (m := k + 1) hG (by omega) (by omega)
    obtain ⟨PR, e6, hPR⟩ := h.dropFirst0 (by omega) (by omega)
    obtain ⟨gR, e7, hgR⟩ := Grid.dropFirst0 (m := k + 1) hG (by omega) (by omega)
    obtain ⟨L, e8, hL⟩ := hPL.binaryOp (hgL.map fun x => scale x (1 / 2)) (· + ·)
    obtain ⟨R, e9, hR⟩ := hPR.binaryOp (hgR.map fun x => scale x (1 / 2)) (· - ·)
    obtain ⟨X, e10, hX⟩ := hL.binaryOp hR Prod.mk
    refine ⟨X, ?_, hX.congr rfl rfl fun i hi j hj => ?_⟩
    · rw [e1, Outcome.bind_ok, e2, Outcome.bind_ok, e3, Outcome.bind_ok, e4, Outcome.bind_ok, e5, Outcome.bind_ok, e6, Outcome.bind_ok, e7,
        Outcome.bind_ok, e8, Outcome.bind_ok, e9, Outcome.bind_ok, e10]
    · refine Prod.ext ?_ ?_
      · funext a
        simp only [Pi.add_apply, scale]
        ring
      · funext a
        simp only [Pi.sub_apply, scale]
        ring

theorem extrapolate1 {A : Arr 2 (Vec 5 ℝ)} {p : Nat → Nat → Vec 5 ℝ} {method : Int} (z : Fin 5 → Bool) (theta : ℝ) (h : Grid A m (n + 1) p)
    (h1 : 1 ≤ n) (h2 : method = 1 ∨ 2 ≤ n) (hm : 1 ≤ m) (hmn : m * (n + 1) < 2 ^ 31) :
    ∃ E, extrapolate method z theta 1 A = .ok E ∧ Grid E m n (fun i j => sides method z theta (n + 1) (fun k => p i k) j) := by
  have hm2 : m ≤ m * (n + 1) := Nat.le_mul_of_pos_right _ (Nat.succ_pos n)
  have hn2 : n + 1 ≤ m * (n + 1) := Nat.le_mul_of_pos_left _ hm
  unfold extrapolate sides
  split_ifs with hme
  · exact h.zip2_1 (by omega) (by omega)
  · obtain ⟨k, rfl⟩ : ∃ k, n = k + 1 := ⟨n - 1, by omega⟩
    have hk : 1 ≤ k := by omega
    obtain ⟨T, e1, hT⟩ := h.zip3_1 (n := k) (by omega) (by omega)
    obtain ⟨E, e2, hE⟩ := (hT.map fun x => Plm.plmGradientSeq z z z theta x.1 x.2.1 x.2.2).extendZeros1 hk (by omega) (by omega)
    have hE' : Grid E m (k + 2) (fun i j => slope z theta (k + 1 + 1) (fun k => p i k) j) := by
      refine hE.congr rfl rfl fun i hi j hj => ?_
      unfold slope
      by_cases hc : j = 0 ∨ j = k + 1
      · rw [if_pos hc, if_pos (by omega)]
      · rw [if_neg hc, if_neg (by omega), show j - 1 + 1 = j by omega, show j - 1 + 2 = j + 1 by omega]
    obtain ⟨G, e3, hG⟩ := hE'.evaluate hm (by omega) hmn
    obtain ⟨PL, e4, hPL⟩ := h.dropFinal1 (by omega) (by omega)
    obtain ⟨gL, e5, hgL⟩ := Grid.dropFinal1 (n := k + 1) hG (by omega) (by omega)
    obtain ⟨PR, e6, hPR⟩ := h.dropFirst1 (by omega) (by omega)
    obtain ⟨gR, e7, hgR⟩ := Grid.dropFirst1 (n := k + 1) hG (by omega) (by omega)
    obtain ⟨L, e8, hL⟩ := hPL.binaryOp (hgL.map fun x => scale x (1 / 2)) (· + ·)
    obtain ⟨R, e9, hR⟩ := hPR.binaryOp (hgR.map fun x => scale x (1 / 2)) (· - ·)
    obtain ⟨X, e10, hX⟩ := hL.binaryOp hR Prod.mk
    refine ⟨X, ?_, hX.congr rfl rfl fun i hi j hj => ?_⟩
    · rw [e1, Outcome.bind_ok, e2, Outcome.bind_ok, e3, Outcome.bind_ok, e4, Outcome.bind_ok, e5, Outcome.bind_ok, e6, Outcome.bind_ok, e7,
        Outcome.bind_ok, e8, Outcome.bind_ok, e9, Outcome.bind_ok, e10]
    · refine Prod.ext ?_ ?_
      · funext a
        simp only [Pi.add_apply, scale]
        ring
      · funext a
        simp only [Pi.sub_apply, scale]
        ring

theorem boundaries {A : Arr 2 (Vec 5 ℝ)} {p : Nat → Nat → Vec 5 ℝ} (inflow : ℝ → Vec 5 ℝ) (h : Grid A m n p) (hq : Line qv (n + 1) q)
    (hm : 1 ≤ m) (hm2 : m < 2 ^ 31) (hn2 : n < 2 ^ 31) :
    ∃ B C, extendOuter A = .ok B ∧ extendInflow inflow qv B = .ok C
      ∧ Grid C (m + 2) n (fun i j => column (inflow ((q j + q (j + 1)) / 2)) m (fun k => p k j) i) := by
  obtain ⟨k, rfl⟩ : ∃ k, m = k + 1 := ⟨m - 1, by omega⟩
  obtain ⟨xr, e1, hxr⟩ := h.selectFinal0 (by omega) (by omega)
  obtain ⟨B, e2, hB⟩ := h.concat0 hxr (by omega)
  obtain ⟨qc, e3, hqc⟩ := hq.midpoint (by omega)
  obtain ⟨buf, row, e4, e5, hrow⟩ := (hqc.map inflow).row hn2
  obtain ⟨C, e6, hC⟩ := hrow.concat0 hB (by omega)
  refine ⟨B, C, ?_, ?_, hC.congr (by omega) rfl fun i hi j hj => ?_⟩
  · unfold extendOuter
    rw [e1, Outcome.bind_ok, e2]
  · unfold extendInflow
    rw [e3, Outcome.bind_ok, e4, Outcome.bind_ok]
    have : reshape ![1, volume qc.shape] qc.shape buf = .ok row := e5
    rw [this, Outcome.bind_ok, e6]
  · unfold column
    dsimp only
    by_cases h0 : i = 0
    · rw [if_pos (by omega), if_pos h0]
    · rw [if_neg (by omega), if_neg h0]
      by_cases h1 : i - 1 < k + 1
      · rw [if_pos h1, min_eq_left (by omega)]
      · rw [if_neg h1, min_eq_right (by omega)]
        rfl

/-! ## The update -/

/-- **C65, spherical grid.** What a stage does to each cell, and to the totals: they change by the fluxes through
the innermost and outermost faces and by the sources only.  Nothing passes the poles. -/
theorem advance_balance (g : Gas) (inflow : ℝ → Vec 5 ℝ) (method : Int) (z : Fin 5 → Bool) (theta : ℝ) (s : Solution) (dt : ℝ)
    (hme : method = 1 ∨ method = 2) (hm : 1 ≤ m) (hn : 2 ≤ n) (hn3 : method = 1 ∨ 3 ≤ n) (hmn : (m + 2) * (n + 1) < 2 ^ 31) (u : Nat → Nat → Vec 5 ℝ)
    (hr : Line s.radial (m + 1) r) (hq : Line s.polar (n + 1) q) (hu : Grid s.conserved m n u)
    (hV : ∀ i, i < m → ∀ j, j < n → wedge (r i) (r (i + 1)) (q j) (q (j + 1)) ≠ 0) (p : Nat → Nat → Vec 5 ℝ)
    (hp : ∀ i, i < m → ∀ j, j < n → g.recover (fun a => u i j a / wedge (r i) (r (i + 1)) (q j) (q (j + 1))) = .ok (p i j))
    (Fr Fq S : Nat → Nat → Vec 5 ℝ)
    (hFr : ∀ i, i < m + 1 → ∀ j, j < n →
      g.riemann 0 (sides method z theta (m + 2) (column (inflow ((q j + q (j + 1)) / 2)) m fun k => p k j) i).1
        (sides method z theta (m + 2) (column (inflow ((q j + q (j + 1)) / 2)) m fun k => p k j) i).2 = .ok (Fr i j))
    (hFq : ∀ i, i < m → ∀ j, j < n - 1 → g.riemann 1 (sides method z theta n (p i) j).1 (sides method z theta n (p i) j).2 = .ok (Fq i j))
    (hS : ∀ i, i < m → ∀ j, j < n → g.source (p i j) ((r i + r (i + 1)) / 2) ((q j + q (j + 1)) / 2) = .ok (S i j)) :
    ∃ s' u' G, advance g inflow method z theta s dt = .ok s' ∧ s'.time = s.time + dt ∧ s'.radial = s.radial ∧ s'.polar = s.polar
      ∧ Grid s'.conserved m n u' ∧ (G = fun i j => if j = 0 ∨ j = n then 0 else Fq i (j - 1))
      ∧ (∀ i j a, u' i j a = u i j a + dt * (Fr i j a * zone (r i) (q j) (q (j + 1)) - Fr (i + 1) j a * zone (r (i + 1)) (q j) (q (j + 1))
          + (G i j a * cone (r i) (r (i + 1)) (q j) - G i (j + 1) a * cone (r i) (r (i + 1)) (q (j + 1)))
          + S i j a * wedge (r i) (r (i + 1)) (q j) (q (j + 1))))
      ∧ ∀ a, ∑ i ∈ Finset.range m, ∑ j ∈ Finset.range n, u' i j a = ∑ i ∈ Finset.range m, ∑ j ∈ Finset.range n, u i j a
          + dt * (∑ j ∈ Finset.range n, Fr 0 j a * zone (r 0) (q j) (q (j + 1)) - ∑ j ∈ Finset.range n, Fr m j a * zone (r m) (q j) (q (j + 1))
            + ∑ i ∈ Finset.range m, ∑ j ∈ Finset.range n, S i j a * wedge (r i) (r (i + 1)) (q j) (q (j + 1))) := by
  have b1 : m + 2 ≤ (m + 2) * (n + 1) := Nat.le_mul_of_pos_right _ (by omega)
  have b2 : n + 1 ≤ (m + 2) * (n + 1) := Nat.le_mul_of_pos_left _ (by omega)
  have b3 : m * n ≤ (m + 2) * (n + 1) := Nat.mul_le_mul (by omega) (by omega)
  have b4 : (m + 1) * n ≤ (m + 2) * (n + 1) := Nat.mul_le_mul (by omega) (by omega)
  have b5 : m * (n + 1) ≤ (m + 2) * (n + 1) := Nat.mul_le_mul (by omega) (by omega)
  have b6 : (m + 2) * n ≤ (m + 2) * (n + 1) := Nat.mul_le_mul (by omega) (by omega)
  replace b1 := lt_of_le_of_lt b1 hmn
  replace b2 := lt_of_le_of_lt b2 hmn
  replace b3 := lt_of_le_of_lt b3 hmn
  replace b4 := lt_of_le_of_lt b4 hmn
  replace b5 := lt_of_le_of_lt b5 hmn
  replace b6 := lt_of_le_of_lt b6 hmn
  clear hmn
  obtain ⟨c, e1, hc⟩ := cellCentroids_grid hr hq (by omega) (by omega)
  obtain ⟨rc, e2, hrc⟩ := hc.evaluate hm (by omega) b3
  obtain ⟨v, e3, hv⟩ := cellVolumes_grid hr hq (by omega) (by omega)
  obtain ⟨dv, e4, hdv⟩ := hv.evaluate hm (by omega) b3
  obtain ⟨ar, e5, har⟩ := radialFaceAreas_grid hr hq (by omega) (by omega)
  obtain ⟨dAr, e6, hdAr⟩ := har.evaluate (by omega) (by omega) b4
  obtain ⟨aq, e7, haq⟩ := polarFaceAreas_grid hr hq (by omega) (by omega)
  obtain ⟨dAq, e8, hdAq⟩ := haq.evaluate (by omega) (by omega) b5
  obtain ⟨d, e9, hd⟩ := hu.binaryOpO hdv (u := divideVec) (x := fun i j => fun a => u i j a / wedge (r i) (r (i + 1)) (q j) (q (j + 1)))
    fun i hi j hj => by
      unfold divideVec
      rw [if_neg (hV i hi j hj)]
  obtain ⟨p0, e10, hp0⟩ := (hd.mapO hp).evaluate hm (by omega) b3
  obtain ⟨src, e11, hsrc⟩ := hp0.binaryOpO hrc (u := fun p x => g.source p x.1 x.2) hS
  obtain ⟨s0, e12, hs0⟩ := hsrc.binaryOp hdv scale
  obtain ⟨p1, p2, e13, e14, hp2⟩ := boundaries inflow hp0 hq hm (by omega) (by omega)
  obtain ⟨er, e15, her⟩ := extrapolate0 (method := method) z theta hp2 (by omega) (by omega) b6
  have hfr0 : Grid (intercellFlux g 0 er) (m + 1) n Fr := her.mapO hFr
  obtain ⟨fr, e16, hfr⟩ := hfr0.binaryOp (hdAr.map fun x => -x) scale
  obtain ⟨lr, e17, hlr⟩ := hfr.difference0 (by omega) (by omega)
  obtain ⟨k, rfl⟩ : ∃ k, n = k + 1 := ⟨n - 1, by omega⟩
  obtain ⟨eq, e18, heq⟩ := extrapolate1 (method := method) z theta hp0 (by omega) (by omega) hm b3
  have hfq0 : Grid (intercellFlux g 1 eq) m k Fq := heq.mapO hFq
  obtain ⟨fz, e19, hfz⟩ := hfq0.extendZeros1 (by omega) (by omega) (by omega)
  obtain ⟨fq, e20, hfq⟩ := hfz.binaryOp (hdAq.map fun x => -x) scale
  obtain ⟨lq, e21, hlq⟩ := hfq.difference1 (by omega) (by omega)
  obtain ⟨l, e22, hl⟩ := hlr.binaryOp hlq (· + ·)
  obtain ⟨ls, e23, hls⟩ := hl.binaryOp hs0 (· + ·)
  obtain ⟨u1, e24, hu1⟩ := hu.binaryOp (hls.map fun x => scale x dt) (· + ·)
  obtain ⟨uf, e25, huf⟩ := hu1.evaluate hm (by omega) b3
  obtain ⟨G, hG⟩ : ∃ G : Nat → Nat → Vec 5 ℝ, G = fun i j => if j = 0 ∨ j = k + 1 then 0 else Fq i (j - 1) := ⟨_, rfl⟩
  obtain ⟨u', hu'⟩ : ∃ u' : Nat → Nat → Vec 5 ℝ, u' = fun i j a => u i j a
      + dt * (Fr i j a * zone (r i) (q j) (q (j + 1)) - Fr (i + 1) j a * zone (r (i + 1)) (q j) (q (j + 1))
          + (G i j a * cone (r i) (r (i + 1)) (q j) - G i (j + 1) a * cone (r i) (r (i + 1)) (q (j + 1)))
          + S i j a * wedge (r i) (r (i + 1)) (q j) (q (j + 1))) := ⟨_, rfl⟩
  have hcell : Grid uf m (k + 1) u' := by
    refine huf.congr rfl rfl fun i _ j _ => ?_
    rw [hu', hG]
    funext a
    simp only [Pi.add_apply, Pi.sub_apply, scale]
    ring
  refine ⟨⟨s.time + dt, s.radial, s.polar, uf⟩, u', G, ?_, rfl, rfl, rfl, hcell, hG, fun i j a => by rw [hu'], ?_⟩
  · unfold advance
    rw [e1, Outcome.bind_ok, e2, Outcome.bind_ok, e3, Outcome.bind_ok, e4, Outcome.bind_ok, e5, Outcome.bind_ok, e6, Outcome.bind_ok, e7,
      Outcome.bind_ok, e8, Outcome.bind_ok, e9, Outcome.bind_ok, e10, Outcome.bind_ok, e11, Outcome.bind_ok, e12, Outcome.bind_ok,
      if_pos hme, e13, Outcome.bind_ok, e14, Outcome.bind_ok, e15, Outcome.bind_ok, e16, Outcome.bind_ok, e17, Outcome.bind_ok, e18,
      Outcome.bind_ok, e19, Outcome.bind_ok, e20, Outcome.bind_ok, e21, Outcome.bind_ok, e22, Outcome.bind_ok, e23, Outcome.bind_ok, e24,
      Outcome.bind_ok, e25, Outcome.bind_ok]
  · intro a
    have hG0 : ∀ i, G i 0 a = 0 := fun i => by rw [hG]; rfl
    have hGn : ∀ i, G i (k + 1) a = 0 := fun i => by
      rw [hG]
      dsimp only
      rw [if_pos (Or.inr rfl)]
      rfl
    have hpol : ∀ i, ∑ j ∈ Finset.range (k + 1), (G i j a * cone (r i) (r (i + 1)) (q j) - G i (j + 1) a * cone (r i) (r (i + 1)) (q (j + 1))) = 0 := by
      intro i
      rw [Finset.sum_range_sub' (fun j => G i j a * cone (r i) (r (i + 1)) (q j)), hG0, hGn]
      ring
    have hrad : ∑ i ∈ Finset.range m, ∑ j ∈ Finset.range (k + 1), (Fr i j a * zone (r i) (q j) (q (j + 1))
        - Fr (i + 1) j a * zone (r (i + 1)) (q j) (q (j + 1)))
        = ∑ j ∈ Finset.range (k + 1), Fr 0 j a * zone (r 0) (q j) (q (j + 1)) - ∑ j ∈ Finset.range (k + 1), Fr m j a * zone (r m) (q j) (q (j + 1)) := by
      rw [Finset.sum_congr rfl fun i _ => Finset.sum_sub_distrib (s := Finset.range (k + 1)) (fun j => Fr i j a * zone (r i) (q j) (q (j + 1)))
        (fun j => Fr (i + 1) j a * zone (r (i + 1)) (q j) (q (j + 1)))]
      exact Finset.sum_range_sub' (fun i => ∑ j ∈ Finset.range (k + 1), Fr i j a * zone (r i) (q j) (q (j + 1))) m
    rw [hu']
    simp only [Finset.sum_add_distrib, ← Finset.mul_sum]
    rw [hrad]
    simp only [hpol]
    rw [Finset.sum_const_zero, add_zero]

/-- One shell of two sectors of a gas with constant fluxes and sources. -/
example : ∃ s' u', advance ⟨fun _ => .ok fun _ => 1, fun _ _ _ => .ok fun _ => 2, fun _ _ _ => .ok fun _ => 5⟩ (fun _ _ => 1) 1
      (fun _ => false) 1 ⟨0, ⟨fun _ => 2, fun i => .ok (i 0 + 1 : ℝ)⟩, ⟨fun _ => 3, fun i => .ok (i 0 * (Real.pi / 2))⟩,
        ⟨![1, 2], fun _ => .ok fun _ => 3⟩⟩ (1 / 4) = .ok s' ∧ s'.time = 0 + 1 / 4 ∧ Grid s'.conserved 1 2 u' := by
  have hc : ∀ j : Nat, j < 2 → Real.cos ((j : ℝ) * (Real.pi / 2)) - Real.cos (((j + 1 : Nat) : ℝ) * (Real.pi / 2)) = 1 := by
    intro j hj
    match j with
    | 0 => norm_num
    | 1 =>
      rw [show ((1 + 1 : Nat) : ℝ) * (Real.pi / 2) = Real.pi by push_cast; ring, Nat.cast_one, one_mul, Real.cos_pi_div_two, Real.cos_pi]
      norm_num
  obtain ⟨s', u', _, h1, h2, _, _, h3, _⟩ := advance_balance (m := 1) (n := 2) (r := fun k => (k : ℝ) + 1)
    (q := fun k => (k : ℝ) * (Real.pi / 2))
    ⟨fun _ => .ok fun _ => 1, fun _ _ _ => .ok fun _ => 2, fun _ _ _ => .ok fun _ => 5⟩ (fun _ _ => 1) 1
    (fun _ => false) 1 ⟨0, ⟨fun _ => 2, fun i => .ok (i 0 + 1 : ℝ)⟩, ⟨fun _ => 3, fun i => .ok (i 0 * (Real.pi / 2))⟩,
        ⟨![1, 2], fun _ => .ok fun _ => 3⟩⟩ (1 / 4) (.inl rfl) (by norm_num) (by norm_num) (.inl rfl) (by norm_num)
    (fun _ _ _ => 3) ⟨rfl, fun _ _ => rfl⟩ ⟨rfl, fun _ _ => rfl⟩ ⟨rfl, rfl, fun _ _ _ _ => rfl⟩
    (fun i hi j hj => by
      unfold wedge
      rw [hc j hj]
      have : i = 0 := by omega
      subst this
      have := Real.pi_pos
      norm_num)
    (fun _ _ _ => 1) (fun _ _ _ _ => rfl) (fun _ _ _ => 2) (fun _ _ _ => 2) (fun _ _ _ => 5) (fun _ _ _ _ => rfl) (fun _ _ _ _ => rfl)
    (fun _ _ _ _ => rfl)
  exact ⟨s', u', h1, h2, h3⟩

end Verif.Cloud
