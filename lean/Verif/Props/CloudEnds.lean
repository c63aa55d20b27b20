import Verif.Lemmas.CloudFound
import Verif.Props.CloudSetup
import Verif.Props.CloudMirror

/-!
# C128: a stage of the cloud program ends if the states of all cells can be recovered
-/

namespace Verif.Cloud

open Verif.Nd Verif.Sedov Geometry Real

variable {m n : Nat} {r q : Nat → ℝ}

/-- Both values at the faces of a cell are positive if the cell's is, and its neighbours' are not negative. -/
theorem faces_pos (z : Bool) {theta yl y0 yr : ℝ} (ht : 0 ≤ theta) (ht2 : theta < 2) (hl : 0 ≤ yl) (h0 : 0 < y0) (hr : 0 ≤ yr) :
    |Plm.plmGradient z z z theta yl y0 yr| < 2 * y0 := by
  obtain ⟨b1, -, b3⟩ := Plm.plm_bounded z z z theta yl y0 yr
  rw [abs_of_nonneg ht] at b1 b3
  rcases le_or_gt ((y0 - yl) * (yr - y0)) 0 with h | h
  · rw [Plm.plm_extremum z z z theta yl y0 yr h, abs_zero]
    linarith
  · rcases pos_and_pos_or_neg_and_neg_of_mul_pos h with ⟨h1, h2⟩ | ⟨h1, h2⟩
    · rw [abs_of_pos h1] at b1
      nlinarith
    · rw [abs_of_neg h2] at b3
      nlinarith

theorem faces_nonneg (z : Bool) {theta yl y0 yr : ℝ} (ht : 0 ≤ theta) (ht2 : theta < 2) (hl : 0 ≤ yl) (h0 : 0 ≤ y0) (hr : 0 ≤ yr) :
    |Plm.plmGradient z z z theta yl y0 yr| ≤ 2 * y0 := by
  rcases h0.eq_or_lt with rfl | h0
  · have : (0 - yl) * (yr - 0) ≤ 0 := by nlinarith
    rw [Plm.plm_extremum z z z theta yl 0 yr this, abs_zero, mul_zero]
  · exact (faces_pos z ht ht2 hl h0 hr).le

theorem sides_pos (method : Int) (z : Fin 5 → Bool) {theta : ℝ} (ht : 0 ≤ theta) (ht2 : theta < 2) {N : Nat} {p : Nat → Vec 5 ℝ} (a : Fin 5)
    (hp : ∀ k, k < N → 0 ≤ p k a) {k : Nat} (hk : k + 1 < N) :
    0 ≤ (sides method z theta N p k).1 a ∧ (0 < p k a → 0 < (sides method z theta N p k).1 a) ∧ (0 < p (k + 1) a → 0 < (sides method z theta N p k).2 a) := by
  have hs : ∀ k, k < N → |slope z theta N p k a| ≤ 2 * p k a ∧ (0 < p k a → |slope z theta N p k a| < 2 * p k a) := by
    intro k hk
    have h0 := hp k hk
    unfold slope
    split_ifs with hc
    · rw [Pi.zero_apply, abs_zero]
      constructor
      · linarith
      · intro; linarith
    · exact ⟨faces_nonneg (z a) ht ht2 (hp _ (by omega)) h0 (hp _ (by omega)), fun h => faces_pos (z a) ht ht2 (hp _ (by omega)) h (hp _ (by omega))⟩
  obtain ⟨a1, a2⟩ := hs k (by omega)
  obtain ⟨b1, b2⟩ := hs (k + 1) hk
  unfold sides
  split_ifs
  · exact ⟨hp k (by omega), id, id⟩
  · dsimp only
    have := abs_le.1 a1
    refine ⟨by linarith [this.1], fun h => ?_, fun h => ?_⟩
    · have := abs_lt.1 (a2 h)
      linarith [this.1]
    · have := abs_lt.1 (b2 h)
      linarith [this.2]

theorem riemann_ok (T : ℝ) (a : Fin 2) {l x : Vec 5 ℝ} (l0 : 0 < l 0) (l4 : 0 ≤ l 4) (x0 : 0 < x 0) (x4 : 0 < x 4) :
    ∃ F, (srhd T).riemann a l x = .ok F := by
  refine ⟨_, if_pos ⟨l0, l4, x0, x4.le, ne_of_lt ?_⟩⟩
  have := Srhd.speeds_lt (Pl := x) l (if a = 0 then ⟨1, 0, 0⟩ else ⟨0, 1, 0⟩) (by unfold Srhd.UnitLength; split_ifs <;> norm_num) ⟨x0, x4⟩
    (g := 4 / 3) (by norm_num) (by norm_num)
  rwa [min_comm (Srhd.wavespeeds x _ _).1, max_comm (Srhd.wavespeeds x _ _).2] at this

/-- **C128.** A stage ends if and only if the primitive quantities of every cell can be recovered: with these the fluxes are always computed. -/
theorem stage_ends_iff (T : ℝ) (inflow : ℝ → Vec 5 ℝ) (method : Int) (z : Fin 5 → Bool) {theta : ℝ} (s : Solution) (dt : ℝ)
    (hme : method = 1 ∨ method = 2) (ht : 0 ≤ theta) (ht2 : theta < 2) (hm : 1 ≤ m) (hn : 2 ≤ n) (hn3 : method = 1 ∨ 3 ≤ n)
    (hmn : (m + 2) * (n + 1) < 2 ^ 31) {u : Nat → Nat → Vec 5 ℝ}
    (hr : Line s.radial (m + 1) r) (hq : Line s.polar (n + 1) q) (hu : Grid s.conserved m n u)
    (hV : ∀ i, i < m → ∀ j, j < n → wedge (r i) (r (i + 1)) (q j) (q (j + 1)) ≠ 0) (hr0 : ∀ i, i < m → r i + r (i + 1) ≠ 0)
    (hin : ∀ j, j < n → 0 < inflow ((q j + q (j + 1)) / 2) 0 ∧ 0 ≤ inflow ((q j + q (j + 1)) / 2) 4) :
    (∃ s', advance (srhd T) inflow method z theta s dt = .ok s')
      ↔ ∀ i, i < m → ∀ j, j < n → ∃ P, Srhd.recover (fun a => u i j a / wedge (r i) (r (i + 1)) (q j) (q (j + 1))) (4 / 3) T = .ok P := by
  constructor
  · rintro ⟨s', h⟩ i hi j hj
    obtain ⟨_, _, p, _, _, _, hF⟩ := found_of_advance (srhd T) inflow method z theta s s' dt hm hn hn3 hmn u hr hq hu h
    exact ⟨p i j, hF.primitive i hi j hj⟩
  · intro h
    obtain ⟨p, hp⟩ := choose_grid h
    have hphys : ∀ i, i < m → ∀ j, j < n → Srhd.Physical (p i j) := fun i hi j hj => (Srhd.recover_physical _ _ _ _ (hp i hi j hj)).1
    have hFr : ∀ i, i < m + 1 → ∀ j, j < n → ∃ F, (srhd T).riemann 0 (sides method z theta (m + 2) (column (inflow ((q j + q (j + 1)) / 2)) m fun k => p k j) i).1
        (sides method z theta (m + 2) (column (inflow ((q j + q (j + 1)) / 2)) m fun k => p k j) i).2 = .ok F := by
      intro i hi j hj
      have hc0 : ∀ k, 0 < column (inflow ((q j + q (j + 1)) / 2)) m (fun k => p k j) k 0 := by
        intro k
        unfold column
        split_ifs
        · exact (hin j hj).1
        · exact (hphys _ (by omega) j hj).1
      have hc4 : ∀ k, 0 ≤ column (inflow ((q j + q (j + 1)) / 2)) m (fun k => p k j) k 4 := by
        intro k
        unfold column
        split_ifs
        · exact (hin j hj).2
        · exact (hphys _ (by omega) j hj).2.le
      have hc5 : 0 < column (inflow ((q j + q (j + 1)) / 2)) m (fun k => p k j) (i + 1) 4 := by
        unfold column
        rw [if_neg (by omega)]
        exact (hphys _ (by omega) j hj).2
      obtain ⟨_, a2, a3⟩ := sides_pos method z ht ht2 (N := m + 2) (p := column (inflow ((q j + q (j + 1)) / 2)) m fun k => p k j) 0
        (fun k _ => (hc0 k).le) (k := i) (by omega)
      obtain ⟨b1, _, b3⟩ := sides_pos method z ht ht2 (N := m + 2) (p := column (inflow ((q j + q (j + 1)) / 2)) m fun k => p k j) 4
        (fun k _ => hc4 k) (k := i) (by omega)
      exact riemann_ok T 0 (a2 (hc0 i)) b1 (a3 (hc0 (i + 1))) (b3 hc5)
    have hFq : ∀ i, i < m → ∀ j, j < n - 1 → ∃ F, (srhd T).riemann 1 (sides method z theta n (p i) j).1 (sides method z theta n (p i) j).2 = .ok F := by
      intro i hi j hj
      obtain ⟨_, a2, a3⟩ := sides_pos method z ht ht2 (N := n) (p := p i) 0 (fun k hk => (hphys i hi k hk).1.le) (k := j) (by omega)
      obtain ⟨b1, _, b3⟩ := sides_pos method z ht ht2 (N := n) (p := p i) 4 (fun k hk => (hphys i hi k hk).2.le) (k := j) (by omega)
      exact riemann_ok T 1 (a2 (hphys i hi j (by omega)).1) b1 (a3 (hphys i hi (j + 1) (by omega)).1) (b3 (hphys i hi (j + 1) (by omega)).2)
    obtain ⟨Fr, hFr⟩ := choose_grid hFr
    obtain ⟨Fq, hFq⟩ := choose_grid hFq
    obtain ⟨s', h1, _⟩ := stage (srhd T) inflow method z theta s dt hme hm hn hn3 hmn u hr hq hu hV p Fr Fq _
      ⟨hp, hFr, hFq, fun i hi j hj => if_neg (div_ne_zero (hr0 i hi) two_ne_zero)⟩
    exact ⟨s', h1⟩

/-- Nowhere is the four-velocity of the envelope that the program makes more than five. -/
theorem envelope_slow {c : RunConfig} (h : c.Sensible) {r v : ℝ} (hr : 0 < r) (e : c.envelope.gammaBetaAt r c.jetDelayTime = .ok v) : |v| ≤ 5 := by
  have hs := envelope_sensible h
  obtain ⟨rc, r1, hc, h1, p1, p2, p3⟩ := Envelope.boundaries hs h.delay
  obtain ⟨w, e1, w1, w2, w3, w4, w5⟩ := Envelope.velocity_at hs h.delay hc h1 hr
  have ht := h.delay
  have hl := Envelope.lightSpeed_pos
  unfold Envelope.Model.velocityAt at e1
  rw [e, Outcome.map_ok] at e1
  obtain rfl := Outcome.ok.inj e1
  have hr1 : r1 = 4 / Real.sqrt 17 * Envelope.lightSpeed * c.jetDelayTime := by
    unfold Envelope.Model.envelopBoundary at h1
    rw [Envelope.radius_ok hs hs.m1] at h1
    obtain rfl := Outcome.ok.inj h1
    show c.envelope.u1 * (c.envelope.m1 / c.envelope.m1) ^ (-c.envelope.psi) / Real.sqrt (1 + c.envelope.u1 * (c.envelope.m1 / c.envelope.m1) ^ (-c.envelope.psi)
      * (c.envelope.u1 * (c.envelope.m1 / c.envelope.m1) ^ (-c.envelope.psi))) * _ * _ = _
    rw [div_self hs.m1.ne', Real.one_rpow]
    show 4 * 1 / Real.sqrt (1 + 4 * 1 * (4 * 1)) * _ * _ = _
    norm_num
  have hs0 : (0 : ℝ) < Real.sqrt 17 := Real.sqrt_pos.2 (by norm_num)
  have hs2 : Real.sqrt 17 ^ 2 = 17 := Real.sq_sqrt (by norm_num)
  have hwt : 0 < v / Real.sqrt (1 + v * v) * Envelope.lightSpeed * c.jetDelayTime := mul_pos w1 ht
  have hten : ∀ x : ℝ, x ≤ 1 / 250 → (10 : ℝ) ^ x ≤ 101 / 100 := by
    intro x hx
    calc (10 : ℝ) ^ x ≤ 10 ^ (1 / 250 : ℝ) := Real.rpow_le_rpow_of_exponent_le (by norm_num) hx
      _ ≤ ((101 / 100 : ℝ) ^ (250 : ℕ)) ^ (1 / 250 : ℝ) := Real.rpow_le_rpow (by norm_num) (by norm_num) (by norm_num)
      _ = 101 / 100 := by
        rw [← Real.rpow_natCast, ← Real.rpow_mul (by norm_num), show ((250 : ℕ) : ℝ) * (1 / 250) = 1 by norm_num, Real.rpow_one]
  have near : ∀ {a b : ℝ}, 0 < a → 0 < b → |Real.logb 10 a - Real.logb 10 b| ≤ 1 / 10 ^ 10 → b ≤ 101 / 100 * a := by
    intro a b ha hb hab
    generalize hε : (1 / 10 ^ 10 : ℝ) = ε at hab
    have hε1 : ε ≤ 1 / 250 := by
      rw [← hε]
      norm_num
    have h2 : Real.logb 10 b ≤ Real.logb 10 a + ε := by linarith only [(abs_le.1 hab).1]
    have h3 := Real.rpow_le_rpow_of_exponent_le (by norm_num : (1 : ℝ) ≤ 10) h2
    rw [Real.rpow_add (by norm_num), Real.rpow_logb (by norm_num) (by norm_num) ha, Real.rpow_logb (by norm_num) (by norm_num) hb] at h3
    have := mul_le_mul_of_nonneg_left (hten ε hε1) ha.le
    linarith only [h3, this]
  have hle : v / Real.sqrt (1 + v * v) * Envelope.lightSpeed * c.jetDelayTime ≤ 101 / 100 * r1 := by
    have hr1p : 0 < r1 := p1.trans_le p2
    by_cases a : r < rc
    · rw [w3 a]
      linarith
    · by_cases b : r ≤ r1
      · have := near hr hwt (w4 (not_lt.1 a) b)
        linarith
      · exact near hr1p hwt (w5 (not_le.1 b))
  rw [hr1, show 101 / 100 * (4 / Real.sqrt 17 * Envelope.lightSpeed * c.jetDelayTime) = 101 / 100 * (4 / Real.sqrt 17) * Envelope.lightSpeed * c.jetDelayTime by ring] at hle
  have hle := le_of_mul_le_mul_right (le_of_mul_le_mul_right hle ht) hl
  have hq : (0 : ℝ) < Real.sqrt (1 + v * v) := Real.sqrt_pos.2 (by nlinarith)
  have hq2 : Real.sqrt (1 + v * v) ^ 2 = 1 + v * v := Real.sq_sqrt (by nlinarith)
  have hv0 : 0 < v := by
    by_contra hneg
    have : v / Real.sqrt (1 + v * v) ≤ 0 := div_nonpos_of_nonpos_of_nonneg (not_lt.1 hneg) hq.le
    nlinarith
  have hb : (v / Real.sqrt (1 + v * v)) ^ 2 ≤ (101 / 100 * (4 / Real.sqrt 17)) ^ 2 := pow_le_pow_left₀ (by positivity) hle 2
  rw [div_pow, hq2, mul_pow, div_pow 4, hs2, div_le_iff₀ (by nlinarith)] at hb
  rw [abs_of_pos hv0]
  nlinarith

/-- **C128.** The first step from the initial state of the program ends, if the envelope is nowhere denser than 10^19 times the reference
density. -/
theorem first_step_ends {c : RunConfig} (h : c.Sensible) {jet : JetNozzle.Model} (hjet : jet.Sensible) (hE : 0 < jet.Ej) {density : ℝ} (hd : 0 < density)
    (time : ℝ) {T : ℝ} (hT : T ≤ 1 / 10 ^ 6) {method : Int} (z : Fin 5 → Bool) {theta : ℝ} (cfl : ℝ) (hme : method = 1 ∨ method = 2) (ht : 0 ≤ theta)
    (ht2 : theta < 2) (hcn : (n : Int) = c.nr) (hcm : (m : Int) = ⌊c.numDecades * c.nr⌋) (hn : 2 ≤ n) (hn3 : method = 1 ∨ 3 ≤ n) (hmn : (m + 2) * (n + 1) < 2 ^ 31)
    (hdense : ∀ x d, 1 ≤ x → x ≤ 10 ^ c.numDecades → c.envelope.densityAt (x * c.innerRadius) c.jetDelayTime = .ok d →
      d ≤ 10 ^ 19 * (c.cloudMass * Envelope.solarMass / c.innerRadius ^ 3)) :
    ∃ s t, newSolution c = .ok s ∧ nextSolution (srhd T) (nozzle jet density time) method z theta cfl 1 s = .ok t := by
  obtain ⟨s, m', n', r, q, u, P, kd, e, htime, hr, hq, hu, hn', hm', hm1, hrv, hqv, hk, hcell⟩ := new_solution h
  obtain rfl : n' = n := by omega
  obtain rfl : m' = m := by omega
  have hpi := Real.pi_pos
  have hn0 : (0 : ℝ) < n' := by exact_mod_cast (by omega : 0 < n')
  have hm0 : (0 : ℝ) < m' := by exact_mod_cast (by omega : 0 < m')
  have hdec := h.decades
  have hr1 : ∀ i, i ≤ m' → 1 ≤ r i ∧ r i ≤ 10 ^ c.numDecades := by
    intro i hi
    have hiR : (i : ℝ) ≤ m' := by exact_mod_cast hi
    have hi0 : (0 : ℝ) ≤ i := Nat.cast_nonneg i
    rw [hrv i hi]
    refine ⟨Real.one_le_rpow (by norm_num) (by positivity), Real.rpow_le_rpow_of_exponent_le (by norm_num) ?_⟩
    rw [div_le_iff₀ hm0]
    exact mul_le_mul_of_nonneg_left hiR hdec.le
  have hmid : ∀ i, i < m' → 1 ≤ (r i + r (i + 1)) / 2 ∧ (r i + r (i + 1)) / 2 ≤ 10 ^ c.numDecades := fun i hi => by
    have h1 := hr1 i (by omega)
    have h2 := hr1 (i + 1) (by omega)
    constructor <;> linarith [h1.1, h1.2, h2.1, h2.2]
  have hk0 : 0 < kd := by
    rw [hk]
    have := h.r0
    have := h.mass
    have := solarMass_pos
    positivity
  have hrec : ∀ i, i < m' → ∀ j, j < n' → ∃ Q, Srhd.recover (fun a => u i j a / wedge (r i) (r (i + 1)) (q j) (q (j + 1))) (4 / 3) T = .ok Q := by
    intro i hi j hj
    obtain ⟨a1, a2, a3, a4, a5, a6, a7, a8⟩ := hcell i hi j hj
    have hV := a1.ne'
    rw [show (fun a => u i j a / wedge (r i) (r (i + 1)) (q j) (q (j + 1))) = Srhd.toConserved (P i j) (4 / 3) by
      rw [a3]
      funext a
      field_simp]
    obtain ⟨m1, m2⟩ := hmid i hi
    have hv := envelope_slow h (mul_pos (by linarith) h.r0) a5
    have hden := hdense _ _ m1 m2 a4
    rw [← hk] at hden
    have hP0 : P i j 0 ≤ 10 ^ 19 := le_of_mul_le_mul_right hden hk0
    have hpos := a2.1
    have hW : Srhd.lorentzFactor (P i j) ^ 2 ≤ 10000000000 * (2 - 4 / 3) / (4 / 3) := by
      unfold Srhd.lorentzFactor
      rw [Real.sq_sqrt (by have := Srhd.gammaBeta_nonneg (P i j); linarith)]
      unfold Srhd.gammaBetaSquared
      rw [a6, a7]
      have := abs_le.1 hv
      nlinarith
    refine (Srhd.recover_accurate (P i j) a2 (4 / 3) (by norm_num) (by norm_num) hW T ?_).2 ?_
    · rw [a8]
      have := mul_le_mul_of_nonneg_right hT hpos.le
      linarith
    · rw [a8]
      have : (4 / 3 - 1 : ℝ) ^ 49 * (P i j 0 / 10 ^ 6) ≤ (4 / 3 - 1 : ℝ) ^ 49 * (10 ^ 19 / 10 ^ 6) :=
        mul_le_mul_of_nonneg_left (div_le_div_of_nonneg_right hP0 (by norm_num)) (by norm_num)
      refine this.trans_lt ?_
      norm_num
  have hin : ∀ j, j < n' → 0 < nozzle jet density time s.time ((q j + q (j + 1)) / 2) 0 ∧ 0 ≤ nozzle jet density time s.time ((q j + q (j + 1)) / 2) 4 := by
    intro j hj
    have hval : ∀ k, k ≤ n' → 0 ≤ q k ∧ q k ≤ π := by
      intro k hk
      rw [hqv k hk]
      have hkn : (k : ℝ) ≤ n' := by exact_mod_cast hk
      have hk0 : (0 : ℝ) ≤ k := Nat.cast_nonneg k
      refine ⟨by positivity, ?_⟩
      rw [div_le_iff₀ hn0]
      exact mul_le_mul_of_nonneg_left hkn hpi.le
    have h1 := hval j (by omega)
    have h2 := hval (j + 1) (by omega)
    obtain ⟨d, v, e1, _, e3, _⟩ := JetNozzle.inflow_symmetric hjet hd hE (s.time * time) (q := (q j + q (j + 1)) / 2) (by linarith [h1.1, h2.1]) (by linarith [h1.2, h2.2])
    unfold nozzle
    rw [e1]
    exact ⟨e3, le_rfl⟩
  have b1 : m' + 2 ≤ (m' + 2) * (n' + 1) := Nat.le_mul_of_pos_right _ (by omega)
  obtain ⟨D, e1, hD⟩ := hr.difference (by omega)
  obtain ⟨t, ht'⟩ := (stage_ends_iff T (nozzle jet density time s.time) method z s ((r 1 - r 0) * cfl) hme ht ht2 hm1 hn hn3 hmn hr hq hu
    (fun i hi j hj => (hcell i hi j hj).1.ne') (fun i hi => by
      have h1 := (hr1 i (by omega)).1
      have h2 := (hr1 (i + 1) (by omega)).1
      linarith) hin).2 hrec
  refine ⟨s, t, e, ?_⟩
  unfold nextSolution
  rw [e1, Outcome.bind_ok, hD.2 0 (by omega), Outcome.bind_ok]
  dsimp only
  rw [if_pos rfl, ht']

/-- A heavy cloud, over a tenth of a decade, with thirty angular zones and three radial zones: the first step ends, and in the northern and in the southern hemisphere the same happens. -/
theorem Example.first : ∃ c : RunConfig, c.Sensible ∧ c.nr = 30 ∧ ⌊c.numDecades * c.nr⌋ = 3 ∧ ∃ s t, newSolution c = .ok s
    ∧ nextSolution (srhd 0) (nozzle ⟨10 ^ 51, 10, 10, 1 / 10, 1, 1⟩ 1 1) 2 (fun _ => false) (3 / 2) (1 / 10) 1 s = .ok t := by
  have hs : (Envelope.Model.make 1 0).Sensible := by constructor <;> norm_num [Envelope.Model.make, Envelope.solarMass]
  obtain ⟨a, b, ha, hb, a0, -, -⟩ := Envelope.boundaries hs (t := 1) (by norm_num)
  obtain ⟨a', r1, ha', hr1, -, p2, -⟩ := Envelope.boundaries hs (t := 10 / a) (by positivity)
  obtain rfl : a' = 10 := by
    unfold Envelope.Model.cloudBoundary at ha ha'
    obtain ⟨v, hv, rfl⟩ := Outcome.map_eq_ok.1 ha
    rw [hv, Outcome.map_ok] at ha'
    obtain rfl := Outcome.ok.inj ha'
    rw [mul_one] at a0 ⊢
    field_simp
  obtain ⟨d, hd, d0, -⟩ := (Envelope.density_at hs (by positivity) ha' hr1).2.1 10 (by norm_num) le_rfl
  have hin : ∀ r, 0 < r → r ≤ 10 → (Envelope.Model.make 1 0).densityAt r (10 / a) = .ok d := by
    intro r hr hr'
    obtain ⟨d', e1, -, e2⟩ := (Envelope.density_at hs (by positivity) ha' hr1).2.1 r hr hr'
    rw [hd] at e1
    obtain rfl := Outcome.ok.inj e1
    rw [e2]
    show Outcome.ok (d * (r / 10) ^ (-(0 : ℝ))) = _
    rw [neg_zero, Real.rpow_zero, mul_one]
  have hc : (RunConfig.mk 30 (1 / 10) 1 10 d 0 4 (10 / a)).Sensible :=
    { nr := by norm_num, decades := by norm_num, cells := by norm_num, fits := by norm_num, r0 := by norm_num, cutoff := by norm_num, index2 := by norm_num,
      mass := d0, delay := by show 0 < 10 / a; positivity }
  have hfl : ⌊(1 / 10 : ℝ) * ((30 : Int) : ℝ)⌋ = 3 := by norm_num
  refine ⟨_, hc, rfl, hfl, ?_⟩
  refine first_step_ends (m := 3) (n := 30) hc (by constructor <;> norm_num) (by norm_num) one_pos 1 (by norm_num) _ _ (Or.inr rfl) (by norm_num) (by norm_num) rfl
    (by rw [hfl]; rfl) (by norm_num) (Or.inr (by norm_num)) (by norm_num) ?_
  intro x d' h1 h2 h3
  have h2' : x ≤ 10 := by
    refine h2.trans ?_
    show (10 : ℝ) ^ (1 / 10 : ℝ) ≤ 10
    calc (10 : ℝ) ^ (1 / 10 : ℝ) ≤ 10 ^ (1 : ℝ) := Real.rpow_le_rpow_of_exponent_le (by norm_num) (by norm_num)
      _ = 10 := Real.rpow_one _
  change (Envelope.Model.make 1 0).densityAt (x * 1) (10 / a) = .ok d' at h3
  rw [mul_one, hin x (by linarith) h2'] at h3
  obtain rfl := Outcome.ok.inj h3
  show d ≤ 10 ^ 19 * (d * Envelope.solarMass / 1 ^ 3)
  unfold Envelope.solarMass
  nlinarith

/-- The hypotheses of `run_symmetric`, with one step. -/
example : ∃ (c : RunConfig) (sol : Nat → Solution), newSolution c = .ok (sol 0)
    ∧ nextSolution (srhd 0) (nozzle ⟨10 ^ 51, 10, 10, 1 / 10, 1, 1⟩ 1 1) 2 (fun _ => false) (3 / 2) (1 / 10) 1 (sol 0) = .ok (sol 1)
    ∧ Symmetric 3 30 (sol 1) ∧ Unturned 3 30 (sol 1) := by
  obtain ⟨c, hc, h1, h2, s, t, h3, h4⟩ := Example.first
  refine ⟨c, fun k => if k = 0 then s else t, h3, h4, ?_⟩
  refine run_symmetric hc (jet := ⟨10 ^ 51, 10, 10, 1 / 10, 1, 1⟩) (by constructor <;> norm_num) (by norm_num) one_pos 1 0 (method := 2) (fun _ _ => false) (theta := 3 / 2)
    (cfl := 1 / 10) (rk := 1) (by norm_num) (by rw [h1]; rfl) (by rw [h2]; rfl) (by norm_num) (.inr (by norm_num)) (by norm_num) (fun k => if k = 0 then s else t) h3 1 ?_
  intro k hk
  obtain rfl : k = 0 := by omega
  exact h4

/-- A stage of gas at rest ends, by `stage_ends_iff`; and if one cell is empty, no stage ends. -/
example (z : Fin 5 → Bool) (dt : ℝ) : (∃ s', advance (srhd 0) (fun _ => Example.rest) 2 z (6 / 5) Example.start dt = .ok s')
    ∧ ∀ u, u 0 1 0 = 0 → ∀ C, Grid C 2 3 u → ¬∃ s', advance (srhd 0) (fun _ => Example.rest) 2 z (6 / 5) { Example.start with conserved := C } dt = .ok s' := by
  have hV : ∀ i, i < 2 → ∀ j, j < 3 → wedge (Example.radius i) (Example.radius (i + 1)) (Example.angle j) (Example.angle (j + 1)) ≠ 0 :=
    fun i _ j hj => (Example.wedge_pos i j hj).ne'
  have hr : ∀ i, i < 2 → Example.radius i + Example.radius (i + 1) ≠ 0 := by
    intro i hi
    unfold Example.radius
    positivity
  have hin : ∀ j, j < 3 → 0 < Example.rest 0 ∧ 0 ≤ Example.rest 4 := by
    intro j hj
    constructor
    · norm_num [Example.rest]
    · show (0 : ℝ) ≤ 1
      norm_num
  constructor
  · exact (stage_ends_iff (m := 2) (n := 3) (r := Example.radius) (q := Example.angle) 0 (fun _ => Example.rest) 2 z Example.start dt (.inr rfl) (by norm_num)
      (by norm_num) (by norm_num) (by norm_num) (.inr le_rfl) (by norm_num) ⟨rfl, fun _ _ => rfl⟩ ⟨rfl, fun _ _ => rfl⟩ ⟨rfl, rfl, fun _ _ _ _ => rfl⟩ hV hr hin).2
      fun i hi j hj => ⟨_, (Example.rest_found 2 z (6 / 5)).primitive i hi j hj⟩
  · rintro u hu C hC ⟨s', h⟩
    obtain ⟨P, hP⟩ := (stage_ends_iff (m := 2) (n := 3) (r := Example.radius) (q := Example.angle) 0 (fun _ => Example.rest) 2 z { Example.start with conserved := C } dt
      (.inr rfl) (by norm_num) (by norm_num) (by norm_num) (by norm_num) (.inr le_rfl) (by norm_num) ⟨rfl, fun _ _ => rfl⟩ ⟨rfl, fun _ _ => rfl⟩ hC hV hr hin).1 ⟨s', h⟩
      0 (by norm_num) 1 (by norm_num)
    unfold Srhd.recover at hP
    unfold Srhd.loop at hP
    rw [if_pos (Or.inr (Or.inl (by rw [hu, zero_div])))] at hP
    cases hP

end Verif.Cloud
