import Verif.Model.CloudDiagnostics
import Verif.Spec.CloudDiagnostics
import Verif.Props.SedovSeries
import Verif.Props.CloudSetup

/-!
# Diagnostic fields of the cloud program (C115)
-/

namespace Verif.Cloud

open Verif.Nd Verif.Sedov Real

theorem boost_eq (P : Vec 5 ℝ) : Srhd.lorentzFactor P = boost P := by
  unfold Srhd.lorentzFactor Srhd.gammaBetaSquared boost
  congr 1
  ring

theorem energyFlux_eq {P : Vec 5 ℝ} (h : 0 < P 0) : energyFlux P = current P := by
  have hW : 0 < boost P := Real.sqrt_pos.2 (by positivity)
  have e : Srhd.betaAlong P ⟨1, 0, 0⟩ = P 1 / boost P := by
    unfold Srhd.betaAlong Geometry.UnitVec.project
    rw [boost_eq]
    ring
  show Srhd.betaAlong P ⟨1, 0, 0⟩ * Srhd.toConserved P (4 / 3) 4 + P 4 * Srhd.betaAlong P ⟨1, 0, 0⟩ = _
  have e' : Srhd.toConserved P (4 / 3) 4 = P 0 * boost P * Srhd.specificEnthalpy P (4 / 3) * boost P - P 4 - P 0 * boost P := by
    rw [← boost_eq]
    rfl
  rw [e, e']
  unfold Srhd.specificEnthalpy Srhd.enthalpyDensity current
  have h0 := h.ne'
  field_simp
  ring

theorem behind_eq {k : Nat} (hk : k < 2 ^ 31) (a : Fin 6) : behind k a = k - 2 ^ (a.val + 1) := by
  unfold behind
  split
  · exact Shock.wsub_le (by omega) (by omega)
  · omega

section

variable {u : UnitSystem} {T : ℝ} {s : Solution} {m n : Nat} {r q : Nat → ℝ} {U P : Nat → Nat → Vec 5 ℝ}

theorem primitives_grid (hr : Line s.radial (m + 1) r) (hq : Line s.polar (n + 1) q) (hU : Grid s.conserved m n U)
    (hm : m + 1 < 2 ^ 31) (hn : n + 1 < 2 ^ 31) (hw : ∀ i, i < m → ∀ j, j < n → wedge (r i) (r (i + 1)) (q j) (q (j + 1)) ≠ 0)
    (hP : ∀ i, i < m → ∀ j, j < n → Srhd.recover (fun a => U i j a / wedge (r i) (r (i + 1)) (q j) (q (j + 1))) (4 / 3) T = .ok (P i j)) :
    ∃ p, primitives T s = .ok p ∧ Grid p m n P := by
  obtain ⟨V, e1, hV⟩ := cellVolumes_grid hr hq hm hn
  obtain ⟨D, e2, hD⟩ := hU.binaryOpO hV (u := divideVec) (x := fun i j => fun a => U i j a / wedge (r i) (r (i + 1)) (q j) (q (j + 1))) (by
    intro i hi j hj
    unfold divideVec
    rw [if_neg (hw i hi j hj)])
  refine ⟨_, ?_, hD.mapO (u := fun U => Srhd.recover U (4 / 3) T) hP⟩
  unfold primitives
  rw [e1, Outcome.bind_ok, e2, Outcome.map_ok]

/-- The wedges have volumes. -/
theorem wedges_pos (hr0 : 0 < r 0) (hrm : ∀ i, i < m → r i < r (i + 1)) (hq0 : 0 ≤ q 0) (hqm : ∀ j, j < n → q j < q (j + 1)) (hqn : q n ≤ π) :
    ∀ i, i < m → ∀ j, j < n → 0 < wedge (r i) (r (i + 1)) (q j) (q (j + 1)) := by
  intro i hi j hj
  have h1 : ∀ i, i ≤ m → 0 < r i := by
    intro i
    induction i with
    | zero => exact fun _ => hr0
    | succ i ih => exact fun h => (ih (by omega)).trans (hrm i (by omega))
  have h2 : ∀ j, j ≤ n → 0 ≤ q j := by
    intro j
    induction j with
    | zero => exact fun _ => hq0
    | succ j ih => exact fun h => (ih (by omega)).trans (hqm j (by omega)).le
  have h3 : ∀ d, d ≤ n → q (n - d) ≤ π := by
    intro d
    induction d with
    | zero => exact fun _ => hqn
    | succ d ih =>
      intro h
      have := hqm (n - (d + 1)) (by omega)
      rw [show n - (d + 1) + 1 = n - d by omega] at this
      exact this.le.trans (ih (by omega))
  have h4 := h3 (n - (j + 1)) (by omega)
  rw [show n - (n - (j + 1)) = j + 1 by omega] at h4
  exact wedge_pos (h1 i hi.le) (hrm i hi) (h2 j hj.le) (hqm j hj) h4

theorem power_ok (ht : u.time ≠ 0) : u.power = .ok (u.mass * Envelope.lightSpeed ^ 2 / u.time) := by
  unfold UnitSystem.power Atmosphere.div UnitSystem.energy
  rw [if_neg ht]

/-- **C115, partial.** In each bin in angle, the shock is where the specific entropy drops most from a cell to the next; the peaks of the pressure and of the
energy flow are those found going inwards from there, the plateau the one found going outwards.  Radii are those of the middles of cells, the Lorentz factor
and power after the shock are those of the cell with the peak of pressure, and the further powers are those of the cells 2, 4, 8, 16, 32 and 64 cells inwards of the
shock, or of the innermost.  No element outside of an array is read. -/
theorem shock_columns_partial (u : UnitSystem) (T : ℝ) (s : Solution) {m n : Nat} {r q : Nat → ℝ} {U P : Nat → Nat → Vec 5 ℝ}
    (hr : Line s.radial (m + 1) r) (hq : Line s.polar (n + 1) q) (hU : Grid s.conserved m n U) (h2 : 2 ≤ m) (h1 : 1 ≤ n)
    (hm : m + 1 < 2 ^ 31) (hn : n + 1 < 2 ^ 31) (hr0 : 0 < r 0) (hrm : ∀ i, i < m → r i < r (i + 1))
    (hq0 : 0 ≤ q 0) (hqm : ∀ j, j < n → q j < q (j + 1)) (hqn : q n ≤ π) (ht : u.time ≠ 0)
    (hP : ∀ i, i < m → ∀ j, j < n → Srhd.recover (fun a => U i j a / wedge (r i) (r (i + 1)) (q j) (q (j + 1))) (4 / 3) T = .ok (P i j)) :
    ∃ A y, shockColumns u T s = .ok A ∧ Line A n y ∧ ∀ j, j < n → ∃ k up pk lum,
      SteepestDrop (fun i => entropyOf (4 / 3) (P i j)) m k ∧ PlateauAhead (fun i => Real.log (P i j 4)) m k up
      ∧ PeakBehind (fun i => P i j 4) k pk
      ∧ PeakBehind (fun i => flow r q P i j * (u.mass * Envelope.lightSpeed ^ 2 / u.time)) k lum
      ∧ (y j).midpointRadius = middle r k * u.length ∧ (y j).upstreamRadius = middle r up * u.length
      ∧ (y j).pressureRadius = middle r pk * u.length ∧ (y j).luminosityRadius = middle r lum * u.length
      ∧ (y j).gamma = boost (P pk j)
      ∧ (y j).power = flow r q P pk j * (u.mass * Envelope.lightSpeed ^ 2 / u.time)
      ∧ (y j).powerMax = flow r q P lum j * (u.mass * Envelope.lightSpeed ^ 2 / u.time)
      ∧ ∀ a, (y j).powers a = flow r q P (k - ![2, 4, 8, 16, 32, 64] a) j * (u.mass * Envelope.lightSpeed ^ 2 / u.time) := by
  have hw := wedges_pos hr0 hrm hq0 hqm hqn
  obtain ⟨p, e1, hp⟩ := primitives_grid hr hq hU hm hn (fun i hi j hj => (hw i hi j hj).ne') hP
  obtain ⟨dAr, e2, hA⟩ := radialFaceAreas_grid hr hq hm hn
  obtain ⟨rc, e3, hc⟩ := hr.midpoint (by omega)
  have hc' : Line rc m (middle r) := hc.congr rfl fun k _ => by
    unfold middle
    ring
  have hsize : wsub (volume s.polar.shape) 1 = n := by
    rw [hq.volume hn]
    unfold wsub
    omega
  have key : ∀ j, ∃ c, j < n → shockColumn u p dAr rc j = .ok c ∧ ∃ k up pk lum,
      SteepestDrop (fun i => entropyOf (4 / 3) (P i j)) m k ∧ PlateauAhead (fun i => Real.log (P i j 4)) m k up
      ∧ PeakBehind (fun i => P i j 4) k pk
      ∧ PeakBehind (fun i => flow r q P i j * (u.mass * Envelope.lightSpeed ^ 2 / u.time)) k lum
      ∧ c.midpointRadius = middle r k * u.length ∧ c.upstreamRadius = middle r up * u.length
      ∧ c.pressureRadius = middle r pk * u.length ∧ c.luminosityRadius = middle r lum * u.length
      ∧ c.gamma = boost (P pk j)
      ∧ c.power = flow r q P pk j * (u.mass * Envelope.lightSpeed ^ 2 / u.time)
      ∧ c.powerMax = flow r q P lum j * (u.mass * Envelope.lightSpeed ^ 2 / u.time)
      ∧ ∀ a, c.powers a = flow r q P (k - ![2, 4, 8, 16, 32, 64] a) j * (u.mass * Envelope.lightSpeed ^ 2 / u.time) := by
    intro j
    by_cases hj : j < n
    swap
    · exact ⟨default, fun h => absurd h hj⟩
    have hpos : ∀ i, i < m → 0 < P i j 0 ∧ 0 < P i j 4 := fun i hi => recover_pos (hP i hi j hj)
    obtain ⟨B, f1, hB⟩ := freeze_column hp hj
    obtain ⟨pj, f2, hpj⟩ := hB.evaluate (by omega)
    obtain ⟨C, f3, hC⟩ := freeze_column hA hj
    obtain ⟨Aj, f4, hAj⟩ := hC.midpoint (by omega)
    obtain ⟨L, f5, hL⟩ := (hpj.map energyFlux).binaryOp hAj (fun F a => F * a)
    generalize hW : u.mass * Envelope.lightSpeed ^ 2 / u.time = W
    have hL' : Line (L.map fun L => L * W) m (fun i => flow r q P i j * W) := (hL.map fun L => L * W).congr rfl fun i hi => by
      unfold flow
      rw [energyFlux_eq (hpos i hi).1]
    have hs : Line (pj.mapO (specificEntropy (4 / 3))) m (fun i => entropyOf (4 / 3) (P i j)) := hpj.mapO fun k hk => by
      unfold specificEntropy
      rw [if_pos (hpos k hk)]
      rfl
    have hl : Line (pj.mapO logPressure) m (fun i => Real.log (P i j 4)) := hpj.mapO fun k hk => by
      unfold logPressure
      rw [if_pos (hpos k hk).2]
    obtain ⟨k, g1, hk, hk1, hk2⟩ := Shock.shock_index_partial _ m _ (line_iff.1 hs) h2 (by omega)
    obtain ⟨up, g2, hup⟩ := Shock.plateau_ahead _ m _ (line_iff.1 hl) (by omega) (by omega) k (by omega)
    obtain ⟨pk, g3, hpk, hpk1, hpk2⟩ := Shock.maximum_behind _ m _ (line_iff.1 (hpj.map fun P => P 4)) (by omega) k (by omega)
    obtain ⟨lum, g4, hlum, hlum1, hlum2⟩ := Shock.maximum_behind _ m _ (line_iff.1 hL') (by omega) k (by omega)
    have hupn : up < m := by
      rcases hup with ⟨_, _, h, _⟩ | ⟨h, _⟩ <;> omega
    have hb : ∀ a : Fin 6, (L.map fun L => L * W).get (fun _ => behind k a) = .ok (flow r q P (k - ![2, 4, 8, 16, 32, 64] a) j * W) := by
      intro a
      rw [behind_eq (by omega), hL'.2 _ (lt_of_le_of_lt (Nat.sub_le _ _) (by omega))]
      fin_cases a <;> rfl
    have hvec : ∀ z : Fin 6 → ℝ, ![z 0, z 1, z 2, z 3, z 4, z 5] = z := by
      intro z
      funext a
      fin_cases a <;> rfl
    refine ⟨⟨middle r k * u.length, middle r up * u.length, middle r pk * u.length, middle r lum * u.length, boost (P pk j), flow r q P pk j * W,
      fun a => flow r q P (k - ![2, 4, 8, 16, 32, 64] a) j * W, flow r q P lum j * W⟩, fun _ => ⟨?_, k, up, pk, lum, ⟨hk, hk1, hk2⟩, ?_, ⟨hpk, hpk1, hpk2⟩,
      ⟨hlum, hlum1, hlum2⟩, rfl, rfl, rfl, rfl, rfl, rfl, rfl, fun a => rfl⟩⟩
    · unfold shockColumn
      rw [f1, Outcome.bind_ok, f2, Outcome.bind_ok, f3, Outcome.bind_ok, f4, Outcome.bind_ok, power_ok ht, hW, Outcome.bind_ok, f5, Outcome.bind_ok]
      dsimp only
      rw [g1, Outcome.bind_ok, show (Shock.at1 k 0 : Nat) = k from rfl, g2, Outcome.bind_ok, g3, Outcome.bind_ok, g4, Outcome.bind_ok,
        hc'.2 k (by omega), Outcome.bind_ok, hc'.2 up hupn, Outcome.bind_ok, hc'.2 pk (by omega), Outcome.bind_ok, hc'.2 lum (by omega), Outcome.bind_ok,
        hp.2.2 pk (by omega) j hj, Outcome.bind_ok, hL'.2 pk (by omega), Outcome.bind_ok, hL'.2 lum (by omega)]
      unfold readPowers
      rw [hb 0, hb 1, hb 2, hb 3, hb 4, hb 5]
      simp only [Outcome.bind_ok, Outcome.map_ok, boost_eq]
      exact congrArg (fun z => Outcome.ok (ShockColumn.mk _ _ _ _ _ _ z _)) (hvec fun a => flow r q P (k - ![2, 4, 8, 16, 32, 64] a) j * W)
    · unfold PlateauAhead Falling
      simpa only [not_lt] using hup
  choose c hcs using key
  have hcol : Line (⟨fun _ => wsub (volume s.polar.shape) 1, fun j => shockColumn u p dAr rc (j 0)⟩ : Arr 1 ShockColumn) n c :=
    ⟨hsize, fun j hj => by
      dsimp only
      rw [(hcs j hj).1]⟩
  obtain ⟨A, e4, hA'⟩ := hcol.evaluate (by omega)
  refine ⟨A, c, ?_, hA', fun j hj => (hcs j hj).2⟩
  unfold shockColumns
  rw [e2, Outcome.bind_ok, e3, Outcome.bind_ok, e1, Outcome.bind_ok, e4]

/-- **C115, partial.** The fields with a value for each cell.  The energy flow is that through the inner face of the cell. -/
theorem cell_fields_partial (u : UnitSystem) (T : ℝ) (s : Solution) {m n : Nat} {r q : Nat → ℝ} {U P : Nat → Nat → Vec 5 ℝ}
    (hr : Line s.radial (m + 1) r) (hq : Line s.polar (n + 1) q) (hU : Grid s.conserved m n U) (h2 : 1 ≤ m) (h1 : 1 ≤ n)
    (hsz : (m + 1) * (n + 1) < 2 ^ 31) (hr0 : 0 < r 0) (hrm : ∀ i, i < m → r i < r (i + 1))
    (hq0 : 0 ≤ q 0) (hqm : ∀ j, j < n → q j < q (j + 1)) (hqn : q n ≤ π) (ht : u.time ≠ 0) (hlen : u.length ≠ 0)
    (hP : ∀ i, i < m → ∀ j, j < n → Srhd.recover (fun a => U i j a / wedge (r i) (r (i + 1)) (q j) (q (j + 1))) (4 / 3) T = .ok (P i j)) :
    ∃ f, cellFields u T s = .ok f ∧ f.time = s.time * u.time ∧ Line f.radial (m + 1) (fun i => r i * u.length) ∧ Line f.polar (n + 1) q
      ∧ Grid f.entropy m n (fun i j => entropyOf (4 / 3) (P i j))
      ∧ Grid f.pressure m n (fun i j => P i j 4 * (u.mass * Envelope.lightSpeed ^ 2 / u.length ^ 3))
      ∧ Grid f.density m n (fun i j => P i j 0 * (u.mass / u.length ^ 3))
      ∧ Grid f.gammaBeta m n (fun i j => P i j 1)
      ∧ Grid f.energyFlow m n (fun i j => current (P i j) * zone (r i) (q j) (q (j + 1)) * (u.mass * Envelope.lightSpeed ^ 2 / u.time)) := by
  have b1 : m + 1 ≤ (m + 1) * (n + 1) := Nat.le_mul_of_pos_right _ (by omega)
  have b2 : n + 1 ≤ (m + 1) * (n + 1) := Nat.le_mul_of_pos_left _ (by omega)
  have b3 : m * n ≤ (m + 1) * (n + 1) := Nat.mul_le_mul (by omega) (by omega)
  have hw := wedges_pos hr0 hrm hq0 hqm hqn
  have hpos : ∀ i, i < m → ∀ j, j < n → 0 < P i j 0 ∧ 0 < P i j 4 := fun i hi j hj => recover_pos (hP i hi j hj)
  obtain ⟨p, e1, hp⟩ := primitives_grid hr hq hU (by omega) (by omega) (fun i hi j hj => (hw i hi j hj).ne') hP
  obtain ⟨dAr, e2, hA⟩ := radialFaceAreas_grid hr hq (by omega) (by omega)
  obtain ⟨R, e3, hR⟩ := (hr.map fun r => r * u.length).evaluate (by omega)
  obtain ⟨E, e4, hE⟩ := (hp.mapO (u := specificEntropy (4 / 3)) (g := fun i j => entropyOf (4 / 3) (P i j)) (fun i hi j hj => by
    unfold specificEntropy
    rw [if_pos (hpos i hi j hj)]
    rfl)).evaluate h2 h1 (by omega)
  have hu1 : u.energyDensity = .ok (u.mass * Envelope.lightSpeed ^ 2 / u.length ^ 3) := by
    unfold UnitSystem.energyDensity Atmosphere.div UnitSystem.energy
    rw [if_neg (pow_ne_zero 3 hlen)]
  have hu2 : u.massDensity = .ok (u.mass / u.length ^ 3) := by
    unfold UnitSystem.massDensity Atmosphere.div
    rw [if_neg (pow_ne_zero 3 hlen)]
  obtain ⟨G, e5, hG⟩ := ((hp.map fun P => P 4).map fun p => p * (u.mass * Envelope.lightSpeed ^ 2 / u.length ^ 3)).evaluate h2 h1 (by omega)
  obtain ⟨D, e6, hD⟩ := ((hp.map fun P => P 0).map fun p => p * (u.mass / u.length ^ 3)).evaluate h2 h1 (by omega)
  obtain ⟨B, e7, hB⟩ := (hp.map fun P => P 1).evaluate h2 h1 (by omega)
  obtain ⟨I, e8, hI⟩ := hA.dropFinal0 (by omega) (by omega)
  obtain ⟨F, e9, hF⟩ := (hp.map fun P => Srhd.flux P ⟨1, 0, 0⟩ (4 / 3)).binaryOp hI scale
  obtain ⟨L, e10, hL⟩ := ((hF.map fun L => L 4).map fun L => L * (u.mass * Envelope.lightSpeed ^ 2 / u.time)).evaluate h2 h1 (by omega)
  refine ⟨⟨s.time * u.time, R, s.polar, E, G, D, B, L⟩, ?_, rfl, hR, hq, hE, hG, hD, hB, hL.congr rfl rfl fun i hi j hj => ?_⟩
  · unfold cellFields
    rw [e2, Outcome.bind_ok, e1, Outcome.bind_ok, e3, Outcome.bind_ok, e4, Outcome.bind_ok, hu1, Outcome.bind_ok, e5, Outcome.bind_ok, hu2, Outcome.bind_ok, e6,
      Outcome.bind_ok, e7, Outcome.bind_ok, e8, Outcome.bind_ok, power_ok ht, Outcome.bind_ok, e9, Outcome.bind_ok, e10, Outcome.map_ok]
  · rw [← energyFlux_eq (hpos i hi j hj).1]
    rfl

end

/-- Gas without pressure is recovered with the pressure of the floor. -/
theorem recover_cold {D W v T : ℝ} (hD : 0 < D) (hW : 1 ≤ W) (hv : v ^ 2 + 1 = W ^ 2) (hW' : W ^ 2 ≤ 10 ^ 9) (hT : 0 < T) :
    Srhd.recover ![D, D * v, 0, 0, D * (W - 1)] (4 / 3) T
      = .ok ![D / W, W * (D * v) / (D * (W - 1) + D + T * (D / W)), W * 0 / (D * (W - 1) + D + T * (D / W)), W * 0 / (D * (W - 1) + D + T * (D / W)), T * (D / W)] := by
  have hWp : 0 < W := by linarith
  generalize hUdef : (![D, D * v, 0, 0, D * (W - 1)] : Vec 5 ℝ) = U
  have u0 : U 0 = D := by rw [← hUdef]; rfl
  have u1 : U 1 = D * v := by rw [← hUdef]; rfl
  have u2 : U 2 = 0 := by rw [← hUdef]; rfl
  have u3 : U 3 = 0 := by rw [← hUdef]; rfl
  have u4 : U 4 = D * (W - 1) := by rw [← hUdef]; rfl
  have hv2 : Srhd.guessV2 U 0 = 1 - 1 / W ^ 2 := by
    unfold Srhd.guessV2 Srhd.momentumSquared
    rw [u0, u1, u2, u3, u4, show (D * v * (D * v) + 0 * 0 + 0 * 0) / (D * (W - 1) + D + 0) ^ 2 = 1 - 1 / W ^ 2 by
      have : v ^ 2 = W ^ 2 - 1 := by linarith
      have e : D * (W - 1) + D + 0 = D * W := by ring
      rw [e, show D * v * (D * v) + 0 * 0 + 0 * 0 = D ^ 2 * v ^ 2 by ring, this]
      field_simp]
    refine min_eq_left ?_
    have : (1 : ℝ) / 10 ^ 9 ≤ 1 / W ^ 2 := one_div_le_one_div_of_le (by positivity) hW'
    norm_num at this ⊢
    linarith
  have hWg : Srhd.guessW U 0 = W := by
    unfold Srhd.guessW
    rw [hv2, show 1 / (1 - (1 - 1 / W ^ 2)) = W ^ 2 by field_simp; ring]
    exact Real.sqrt_sq hWp.le
  have hE : Srhd.guessE U 0 = 0 := by
    unfold Srhd.guessE
    rw [hWg, u0, u4]
    have : D * (W - 1) + D * (1 - W) + 0 * (1 - 1 / (1 - Srhd.guessV2 U 0)) = 0 := by ring
    rw [this, zero_div]
  have hF : Srhd.guessF U (4 / 3) 0 = 0 := by
    unfold Srhd.guessF
    rw [hE]
    ring
  have hG : Srhd.guessG U (4 / 3) 0 = -1 := by
    unfold Srhd.guessG
    simp
  have hdh : Srhd.guessDh U 0 ≠ 0 := by
    unfold Srhd.guessDh
    rw [hE, hWg, u0]
    have := (div_pos hD hWp).ne'
    simpa using this
  have hs : U 4 + U 0 + 0 ≠ 0 := by
    rw [u0, u4]
    have : 0 < D * W := by positivity
    intro h
    linarith
  have hl : Srhd.loop U (4 / 3) 50 0 = .ok (true, 0, W) := by
    unfold Srhd.loop
    rw [if_neg (by
      rintro (h | h | h | h)
      · exact hs h
      · rw [u0] at h; exact hD.ne' h
      · exact hdh h
      · rw [hG] at h; norm_num at h)]
    dsimp only
    rw [hF, hG, hWg, if_pos (by unfold Srhd.tolerance; norm_num)]
    norm_num
  have hp : Srhd.floored 0 (D / W) T = T * (D / W) := by
    unfold Srhd.floored
    rw [if_pos hT]
    exact max_eq_right (by positivity)
  have hd : 0 < D / W := by positivity
  have hpp : 0 < T * (D / W) := by positivity
  have hsum : 0 < D * (W - 1) + D + T * (D / W) := by
    have : 0 < D * W := by positivity
    linarith
  unfold Srhd.recover
  rw [hl]
  dsimp only
  unfold Srhd.finish
  dsimp only
  rw [u0, u1, u2, u3, u4, hp, if_neg hsum.ne', if_neg (by simp)]
  refine (if_neg (show ¬ D / W ≤ 0 from not_le.2 hd)).trans ?_
  exact if_neg (show ¬ T * (D / W) ≤ 0 from not_le.2 hpp)

/-- Four cells on a ray, which meet the hypotheses of the two theorems above (`four_meets`): the innermost has gas in motion, the outermost is dense. -/
noncomputable def fourCells (i : Nat) : Vec 5 ℝ :=
  if i = 0 then ![5 / 4, 5 / 4 * (3 / 4), 0, 0, 5 / 4 * (5 / 4 - 1)] else if i = 3 then ![8, 8 * 0, 0, 0, 8 * (1 - 1)] else ![1, 1 * 0, 0, 0, 1 * (1 - 1)]

/-- What the program recovers from them. -/
noncomputable def fourPrims (i : Nat) : Vec 5 ℝ :=
  if i = 0 then ![1, 1875 / 2516, 0, 0, 1 / 100] else if i = 3 then ![8, 0, 0, 0, 8 / 100] else ![1, 0, 0, 0, 1 / 100]

theorem four_recover (i : Nat) : Srhd.recover (fourCells i) (4 / 3) (1 / 100) = .ok (fourPrims i) := by
  unfold fourCells fourPrims
  split
  · rw [recover_cold (by norm_num) (by norm_num) (by norm_num) (by norm_num) (by norm_num)]
    norm_num
  · split
    · rw [recover_cold (by norm_num) (by norm_num) (by norm_num) (by norm_num) (by norm_num)]
      norm_num
    · rw [recover_cold (by norm_num) (by norm_num) (by norm_num) (by norm_num) (by norm_num)]
      norm_num

/-- A state with a single bin in angle. -/
noncomputable def fourState : Solution where
  time := 0
  radial := ⟨fun _ => 5, fun i => .ok (i 0 + 1)⟩
  polar := ⟨fun _ => 2, fun j => .ok (π * j 0)⟩
  conserved := ⟨![4, 1], fun i => .ok (scale (fourCells (i 0)) (wedge (i 0 + 1) (((i 0 + 1 : Nat) : ℝ) + 1) (π * i 1) (π * ((i 1 + 1 : Nat) : ℝ))))⟩

theorem four_meets : Line fourState.radial (4 + 1) (fun i => (i : ℝ) + 1) ∧ Line fourState.polar (1 + 1) (fun j => π * j)
    ∧ Grid fourState.conserved 4 1 (fun i j => scale (fourCells i) (wedge ((i : ℝ) + 1) (((i + 1 : Nat) : ℝ) + 1) (π * j) (π * ((j + 1 : Nat) : ℝ))))
    ∧ ∀ i, i < 4 → ∀ j, j < 1 → Srhd.recover (fun a => scale (fourCells i) (wedge ((i : ℝ) + 1) (((i + 1 : Nat) : ℝ) + 1) (π * (j : Nat)) (π * ((j + 1 : Nat) : ℝ))) a
      / wedge ((i : ℝ) + 1) (((i + 1 : Nat) : ℝ) + 1) (π * (j : Nat)) (π * ((j + 1 : Nat) : ℝ))) (4 / 3) (1 / 100) = .ok (fourPrims i) := by
  refine ⟨⟨rfl, fun _ _ => rfl⟩, ⟨rfl, fun _ _ => rfl⟩, ⟨rfl, rfl, fun _ _ _ _ => rfl⟩, fun i _ j hj => ?_⟩
  have hw : wedge ((i : ℝ) + 1) (((i + 1 : Nat) : ℝ) + 1) (π * (j : Nat)) (π * ((j + 1 : Nat) : ℝ)) ≠ 0 := by
    obtain rfl : j = 0 := by omega
    refine (wedge_pos (by positivity) (by push_cast; linarith) (by simp) ?_ ?_).ne'
    · simp [pi_pos]
    · simp
  rw [← four_recover i]
  congr 1
  funext a
  unfold scale
  field_simp

/-- **C115 is violated**: `postshock_flow_power_max` is not the largest of the powers behind the shock; it is smaller than `postshock_flow_power02`.  And
the energy flow that is written for the cell of which the latter is the power, is two fifths of it. -/
theorem power_max_violated (u : UnitSystem) (hM : 0 < u.mass) (ht : 0 < u.time) (hlen : 0 < u.length) :
    ∃ A y f e, shockColumns u (1 / 100) fourState = .ok A ∧ Line A 1 y ∧ (y 0).midpointRadius = 7 / 2 * u.length
      ∧ (y 0).powerMax = 0 ∧ 0 < (y 0).powers 0
      ∧ cellFields u (1 / 100) fourState = .ok f ∧ f.energyFlow.get ![0, 0] = .ok e ∧ e = 2 / 5 * (y 0).powers 0 := by
  obtain ⟨h1, h2, h3, h4⟩ := four_meets
  have hrm : ∀ i, i < 4 → ((i : Nat) : ℝ) + 1 < ((i + 1 : Nat) : ℝ) + 1 := fun i _ => by
    push_cast
    linarith
  have hqm : ∀ j, j < 1 → π * ((j : Nat) : ℝ) < π * ((j + 1 : Nat) : ℝ) := fun j _ => by
    push_cast
    linarith [pi_pos]
  obtain ⟨A, y, e1, hA, hy⟩ := shock_columns_partial u (1 / 100) fourState (P := fun i _ => fourPrims i) h1 h2 h3 (by norm_num) (by norm_num) (by norm_num) (by norm_num)
    (by norm_num) hrm (by simp) hqm (by simp) ht.ne' h4
  obtain ⟨f, e2, -, -, -, -, -, -, -, hf⟩ := cell_fields_partial u (1 / 100) fourState (P := fun i _ => fourPrims i) h1 h2 h3 (by norm_num) (by norm_num) (by norm_num)
    (by norm_num) hrm (by simp) hqm (by simp) ht.ne' hlen.ne' h4
  obtain ⟨k, up, pk, lum, hk, -, -, hlum, g1, -, -, -, -, -, g2, g3⟩ := hy 0 (by omega)
  have p0 : fourPrims 0 = ![1, 1875 / 2516, 0, 0, 1 / 100] := rfl
  have p1 : fourPrims 1 = ![1, 0, 0, 0, 1 / 100] := rfl
  have p2 : fourPrims 2 = ![1, 0, 0, 0, 1 / 100] := rfl
  have p3 : fourPrims 3 = ![8, 0, 0, 0, 8 / 100] := rfl
  have s2 : entropyOf (4 / 3) (fourPrims 2) = Real.log (1 / 100) := by
    rw [p2]
    show Real.log (1 / 100 / 1 ^ (4 / 3 : ℝ)) = _
    rw [Real.one_rpow, div_one]
  have s3 : entropyOf (4 / 3) (fourPrims 3) = Real.log (1 / 200) := by
    rw [p3]
    show Real.log (8 / 100 / 8 ^ (4 / 3 : ℝ)) = _
    rw [show (8 : ℝ) = 2 ^ (3 : ℝ) by norm_num, ← Real.rpow_mul (by norm_num)]
    norm_num
  have s1 : entropyOf (4 / 3) (fourPrims 1) = entropyOf (4 / 3) (fourPrims 2) := by rw [p1, p2]
  have s0 : entropyOf (4 / 3) (fourPrims 0) = entropyOf (4 / 3) (fourPrims 1) := by
    rw [p0, p1]
    rfl
  have hlog : Real.log (1 / 200) < Real.log (1 / 100) := Real.log_lt_log (by norm_num) (by norm_num)
  have hk2 : k = 2 := by
    obtain ⟨h, h', -⟩ := hk
    have h'' := h' 2 (by norm_num)
    dsimp only at h''
    rcases (by omega : k = 0 ∨ k = 1 ∨ k = 2) with rfl | rfl | rfl
    · rw [zero_add, s0, s1, s3, s2] at h''
      linarith
    · rw [s1, s3, s2] at h''
      linarith
    · rfl
  subst hk2
  have c1 : current (fourPrims 1) = 0 := by
    rw [p1]
    show (1 : ℝ) * 0 * _ = 0
    ring
  have c2 : current (fourPrims 2) = 0 := by rw [p2, ← p1, c1]
  have hl : lum = 2 := by
    obtain ⟨h, h', -⟩ := hlum
    by_contra hne
    have := h' 2 (by omega) le_rfl
    simp [flow, c1, c2] at this
  subst hl
  have c0 : 0 < current (fourPrims 0) := by
    rw [p0]
    show 0 < (1 : ℝ) * (1875 / 2516) * ((1 + 4 * (1 / 100 / 1)) * boost ![1, 1875 / 2516, 0, 0, 1 / 100] - 1)
    have : 1 ≤ boost ![1, 1875 / 2516, 0, 0, 1 / 100] := by
      show 1 ≤ Real.sqrt (1 + (1875 / 2516) ^ 2 + 0 ^ 2 + 0 ^ 2)
      rw [Real.one_le_sqrt]
      norm_num
    have : 0 < (1 + 4 * (1 / 100 / 1)) * boost ![1, 1875 / 2516, 0, 0, 1 / 100] - 1 := by linarith
    positivity
  have hW : 0 < u.mass * Envelope.lightSpeed ^ 2 / u.time := by
    have : 0 < Envelope.lightSpeed := by unfold Envelope.lightSpeed; norm_num
    positivity
  have hz : ∀ x : ℝ, zone x (π * ((0 : Nat) : ℝ)) (π * ((0 + 1 : Nat) : ℝ)) = 4 * π * x ^ 2 := by
    intro x
    unfold zone
    simp
    ring
  have hpow : (y 0).powers 0 = current (fourPrims 0) * (10 * π) * (u.mass * Envelope.lightSpeed ^ 2 / u.time) := by
    rw [g3 0]
    show current (fourPrims 0) * ((zone (((0 : Nat) : ℝ) + 1) (π * ((0 : Nat) : ℝ)) (π * ((0 + 1 : Nat) : ℝ))
      + zone (((0 + 1 : Nat) : ℝ) + 1) (π * ((0 : Nat) : ℝ)) (π * ((0 + 1 : Nat) : ℝ))) / 2) * _ = _
    rw [hz, hz]
    push_cast
    ring
  refine ⟨A, y, f, _, e1, hA, ?_, ?_, ?_, e2, hf.2.2 0 (by norm_num) 0 (by norm_num), ?_⟩
  · rw [g1]
    unfold middle
    norm_num
  · rw [g2]
    unfold flow
    rw [c2]
    ring
  · rw [hpow]
    have := pi_pos
    positivity
  · beta_reduce
    rw [hpow, hz]
    push_cast
    ring

end Verif.Cloud
