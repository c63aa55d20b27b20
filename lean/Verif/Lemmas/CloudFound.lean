import Verif.Lemmas.GridInverse
import Verif.Props.CloudGas

/-!
# A stage of the cloud program that ends has found states, fluxes and sources everywhere
-/

namespace Verif.Cloud

open Verif.Nd Verif.Sedov

variable {m n : Nat} {r q : Nat → ℝ}

/-- Values that are all found make an array of values. -/
theorem choose_grid {α : Type} [Inhabited α] {f : Nat → Nat → Outcome α} (h : ∀ i, i < m → ∀ j, j < n → ∃ v, f i j = .ok v) :
    ∃ x : Nat → Nat → α, ∀ i, i < m → ∀ j, j < n → f i j = .ok (x i j) := by
  classical
  refine ⟨fun i j => if hv : ∃ v, f i j = .ok v then hv.choose else default, fun i hi j hj => ?_⟩
  have hv := h i hi j hj
  dsimp only
  rw [dif_pos hv]
  exact hv.choose_spec

theorem found_of_advance (g : Gas) (inflow : ℝ → Vec 5 ℝ) (method : Int) (z : Fin 5 → Bool) (theta : ℝ) (s s' : Solution) (dt : ℝ)
    (hm : 1 ≤ m) (hn : 2 ≤ n) (hn3 : method = 1 ∨ 3 ≤ n) (hmn : (m + 2) * (n + 1) < 2 ^ 31) (u : Nat → Nat → Vec 5 ℝ)
    (hr : Line s.radial (m + 1) r) (hq : Line s.polar (n + 1) q) (hu : Grid s.conserved m n u)
    (h : advance g inflow method z theta s dt = .ok s') :
    (method = 1 ∨ method = 2) ∧ (∀ i, i < m → ∀ j, j < n → wedge (r i) (r (i + 1)) (q j) (q (j + 1)) ≠ 0)
      ∧ ∃ p Fr Fq S, Found g inflow method z theta m n r q u p Fr Fq S := by
  have b1 : m + 2 ≤ (m + 2) * (n + 1) := Nat.le_mul_of_pos_right _ (by omega)
  have b2 : n + 1 ≤ (m + 2) * (n + 1) := Nat.le_mul_of_pos_left _ (by omega)
  have b3 : m * n ≤ (m + 2) * (n + 1) := Nat.mul_le_mul (by omega) (by omega)
  have b4 : (m + 1) * n ≤ (m + 2) * (n + 1) := Nat.mul_le_mul (by omega) (by omega)
  have b5 : m * (n + 1) ≤ (m + 2) * (n + 1) := Nat.mul_le_mul (by omega) (by omega)
  have b6 : (m + 2) * n ≤ (m + 2) * (n + 1) := Nat.mul_le_mul (by omega) (by omega)
  replace b1 := lt_of_le_of_lt b1 hmn
  replace b2 := lt_of_le_of_lt b2 hmn
  replace b3 := lt_of_le_of_lt b3 hmn
  replace b4 := lt_of_le_of_lt b4 hmn
  replace b5 := lt_of_le_of_lt b5 hmn
  replace b6 := lt_of_le_of_lt b6 hmn
  clear hmn
  obtain ⟨c, e1, hc⟩ := cellCentroids_grid hr hq (by omega) (by omega)
  obtain ⟨rc, e2, hrc⟩ := hc.evaluate hm (by omega) b3
  obtain ⟨v, e3, hv⟩ := cellVolumes_grid hr hq (by omega) (by omega)
  obtain ⟨dv, e4, hdv⟩ := hv.evaluate hm (by omega) b3
  obtain ⟨ar, e5, har⟩ := radialFaceAreas_grid hr hq (by omega) (by omega)
  obtain ⟨dAr, e6, hdAr⟩ := har.evaluate (by omega) (by omega) b4
  obtain ⟨aq, e7, haq⟩ := polarFaceAreas_grid hr hq (by omega) (by omega)
  obtain ⟨dAq, e8, hdAq⟩ := haq.evaluate (by omega) (by omega) b5
  unfold advance at h
  rw [e1, Outcome.bind_ok, e2, Outcome.bind_ok, e3, Outcome.bind_ok, e4, Outcome.bind_ok, e5, Outcome.bind_ok, e6, Outcome.bind_ok, e7,
      Outcome.bind_ok, e8, Outcome.bind_ok] at h
  clear e1 e2 e3 e4 e5 e6 e7 e8
  -- primitive quantities
  obtain ⟨d, e9, h⟩ := Outcome.bind_eq_ok.1 h
  obtain ⟨p0, e10, h⟩ := Outcome.bind_eq_ok.1 h
  obtain ⟨C, eC, hC⟩ := hu.binaryOp hdv Prod.mk
  unfold binaryOpO at e9
  rw [eC, Outcome.map_ok] at e9
  injection e9 with e9
  obtain ⟨p, hpA, hp0⟩ := evaluate_grid (m := m) (n := n) e10 (by rw [← e9]; exact hC.shape_eq) hm (by omega) b3
  have hprim : ∀ i, i < m → ∀ j, j < n → wedge (r i) (r (i + 1)) (q j) (q (j + 1)) ≠ 0
      ∧ g.recover (fun a => u i j a / wedge (r i) (r (i + 1)) (q j) (q (j + 1))) = .ok (p i j) := by
    intro i hi j hj
    have e := hpA.2.2 i hi j hj
    rw [← e9] at e
    obtain ⟨x, hx, e⟩ := mapO_inv e
    obtain ⟨y, hy, e'⟩ := mapO_inv hx
    rw [hC.2.2 i hi j hj] at hy
    injection hy with hy
    rw [← hy] at e'
    unfold divideVec at e'
    dsimp only at e'
    split at e'
    · cases e'
    · rename_i h0
      injection e' with e'
      exact ⟨h0, by rw [e']; exact e⟩
  -- sources
  obtain ⟨src, e11, h⟩ := Outcome.bind_eq_ok.1 h
  obtain ⟨s0, e12, h⟩ := Outcome.bind_eq_ok.1 h
  obtain ⟨C', eC', hC'⟩ := hp0.binaryOp hrc Prod.mk
  unfold binaryOpO at e11
  rw [eC', Outcome.map_ok] at e11
  injection e11 with e11
  obtain ⟨_, s0s, s0g⟩ := binaryOp_inv e12
  split at h
  swap
  · cases h
  rename_i hme
  obtain ⟨p1, p2, e13, e14, hp2⟩ := boundaries inflow hp0 hq hm (by omega) (by omega)
  obtain ⟨er, e15, her⟩ := extrapolate0 (method := method) z theta hp2 (by omega) (by omega) b6
  rw [e13, Outcome.bind_ok, e14, Outcome.bind_ok, e15, Outcome.bind_ok] at h
  obtain ⟨fr, e16, h⟩ := Outcome.bind_eq_ok.1 h
  obtain ⟨_, frs, frg⟩ := binaryOp_inv e16
  obtain ⟨lr, e17, h⟩ := Outcome.bind_eq_ok.1 h
  obtain ⟨lrs, lrg⟩ := difference0_inv (m := m) (n := n) e17 (by rw [frs]; exact her.shape_eq) (by omega) (by omega)
  obtain ⟨k, rfl⟩ : ∃ k, n = k + 1 := ⟨n - 1, by omega⟩
  obtain ⟨eq, e18, heq⟩ := extrapolate1 (method := method) z theta hp0 (by omega) (by omega) hm b3
  rw [e18, Outcome.bind_ok] at h
  obtain ⟨fz, e19, h⟩ := Outcome.bind_eq_ok.1 h
  have fzg := extendZeros1_inv (m := m) (n := k) e19 heq.shape_eq (by omega) (by omega) (by omega)
  obtain ⟨fq, e20, h⟩ := Outcome.bind_eq_ok.1 h
  obtain ⟨fqs', fqs, fqg⟩ := binaryOp_inv e20
  obtain ⟨lq, e21, h⟩ := Outcome.bind_eq_ok.1 h
  obtain ⟨lqs, lqg⟩ := difference1_inv (m := m) (n := k + 1) e21 (by rw [fqs, fqs']; exact hdAq.shape_eq) (by omega) (by omega)
  obtain ⟨l, e22, h⟩ := Outcome.bind_eq_ok.1 h
  obtain ⟨_, _, lg⟩ := binaryOp_inv e22
  obtain ⟨ls, e23, h⟩ := Outcome.bind_eq_ok.1 h
  obtain ⟨_, _, lsg⟩ := binaryOp_inv e23
  obtain ⟨u1, e24, h⟩ := Outcome.bind_eq_ok.1 h
  obtain ⟨_, u1s, u1g⟩ := binaryOp_inv e24
  obtain ⟨uf, e25, h⟩ := Outcome.bind_eq_ok.1 h
  have hall := evaluate_gets (m := m) (n := k + 1) e25 (by rw [u1s]; exact hu.shape_eq) hm (by omega) (by omega) (by omega)
  have hparts : ∀ i, i < m → ∀ j, j < k + 1 → (∃ a, lr.get ![i, j] = .ok a) ∧ (∃ a, lq.get ![i, j] = .ok a) ∧ ∃ a, s0.get ![i, j] = .ok a := by
    intro i hi j hj
    obtain ⟨x, hx⟩ := hall i hi j hj
    obtain ⟨_, y, hy⟩ := u1g _ _ hx
    obtain ⟨x, hx⟩ := map_inv hy
    obtain ⟨⟨x, hx⟩, hs⟩ := lsg _ _ hx
    obtain ⟨h1, h2⟩ := lg _ _ hx
    exact ⟨h1, h2, hs⟩
  refine ⟨hme, fun i hi j hj => (hprim i hi j hj).1, ?_⟩
  have hFr : ∀ i, i < m + 1 → ∀ j, j < k + 1 → ∃ F, g.riemann 0 (sides method z theta (m + 2) (column (inflow ((q j + q (j + 1)) / 2)) m fun k => p k j) i).1
      (sides method z theta (m + 2) (column (inflow ((q j + q (j + 1)) / 2)) m fun k => p k j) i).2 = .ok F := by
    intro i hi j hj
    have hx : ∃ a, fr.get ![i, j] = .ok a := by
      by_cases h0 : i < m
      · obtain ⟨⟨x, hx⟩, _⟩ := hparts i h0 j hj
        exact (lrg i h0 j hj x hx).1
      · obtain rfl : i = (m - 1) + 1 := by omega
        obtain ⟨⟨x, hx⟩, _⟩ := hparts (m - 1) (by omega) j hj
        exact (lrg (m - 1) (by omega) j hj x hx).2
    obtain ⟨x, hx⟩ := hx
    obtain ⟨⟨F, hF⟩, _⟩ := frg _ _ hx
    obtain ⟨y, hy, hF⟩ := mapO_inv hF
    rw [her.2.2 i hi j hj] at hy
    injection hy with hy
    rw [← hy] at hF
    exact ⟨F, hF⟩
  have hFq : ∀ i, i < m → ∀ j, j < k + 1 - 1 → ∃ F, g.riemann 1 (sides method z theta (k + 1) (p i) j).1 (sides method z theta (k + 1) (p i) j).2 = .ok F := by
    intro i hi j hj
    obtain ⟨_, ⟨x, hx⟩, _⟩ := hparts i hi j (by omega)
    obtain ⟨_, x, hx⟩ := lqg i hi j (by omega) x hx
    obtain ⟨⟨F, hF⟩, _⟩ := fqg _ _ hx
    rw [fzg i j (by omega)] at hF
    obtain ⟨y, hy, hF⟩ := mapO_inv hF
    rw [heq.2.2 i hi j (by omega)] at hy
    injection hy with hy
    rw [← hy] at hF
    exact ⟨F, hF⟩
  have hS : ∀ i, i < m → ∀ j, j < k + 1 → ∃ F, g.source (p i j) ((r i + r (i + 1)) / 2) ((q j + q (j + 1)) / 2) = .ok F := by
    intro i hi j hj
    obtain ⟨_, _, x, hx⟩ := hparts i hi j hj
    obtain ⟨⟨F, hF⟩, _⟩ := s0g _ _ hx
    rw [← e11] at hF
    obtain ⟨y, hy, hF⟩ := mapO_inv hF
    rw [hC'.2.2 i hi j hj] at hy
    injection hy with hy
    rw [← hy] at hF
    exact ⟨F, hF⟩
  obtain ⟨Fr, hFr⟩ := choose_grid hFr
  obtain ⟨Fq, hFq⟩ := choose_grid hFq
  obtain ⟨S, hS⟩ := choose_grid hS
  exact ⟨p, Fr, Fq, S, fun i hi j hj => (hprim i hi j hj).2, hFr, hFq, hS⟩

end Verif.Cloud
