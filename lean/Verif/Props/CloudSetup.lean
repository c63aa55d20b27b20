import Verif.Model.CloudSetup
import Verif.Props.Cloud
import Verif.Props.Envelope
import Verif.Props.NdFreeze
import Verif.Props.Srhd

/-!
# C102, C103: initial state, units and diagnostics of the cloud program
-/

namespace Verif.Cloud

open Verif.Nd Verif.Sedov Real

/-- A configuration the program can start from: a grid of at least one cell that is not too large, positive lengths, times and masses, and an atmosphere of finite mass. -/
structure RunConfig.Sensible (c : RunConfig) : Prop where
  nr : 1 ≤ c.nr
  decades : 0 < c.numDecades
  cells : 1 ≤ c.numDecades * c.nr
  fits : (c.numDecades * c.nr + 1) * (c.nr + 1) < 2 ^ 31
  r0 : 0 < c.innerRadius
  cutoff : c.innerRadius < c.cloudCutoff
  index2 : 3 < c.densityIndex2
  mass : 0 < c.cloudMass
  delay : 0 < c.jetDelayTime

/-- The default configuration, and one of a quarter of a decade. -/
example : (RunConfig.mk 256 2 (3 * 10 ^ 8) (3 * 10 ^ 10) (2 / 100) 2 6 1).Sensible ∧ (RunConfig.mk 10 (1 / 4) 1 2 1 3 4 5).Sensible := by
  constructor <;> constructor <;> norm_num

theorem envelope_sensible {c : RunConfig} (h : c.Sensible) : c.envelope.Sensible := by
  refine ⟨?_, ?_, ?_, ?_, ?_, h.r0⟩ <;> norm_num [RunConfig.envelope, Envelope.Model.make, Envelope.solarMass]

theorem solarMass_pos : 0 < Envelope.solarMass := by
  norm_num [Envelope.solarMass]

/-- **C102, units.** The units in which the program computes: the inner radius, the time light needs for it, and the configured mass of the cloud. -/
theorem reference_units {c : RunConfig} (h : c.Sensible) :
    c.reference = .ok ⟨c.innerRadius, c.cloudMass * Envelope.solarMass, c.innerRadius / Envelope.lightSpeed⟩ := by
  obtain ⟨m', e, e1, -, -, -, e2, -⟩ := Atmosphere.total_mass_partial
    { Atmosphere.Model.default with r0 := c.innerRadius, rc := c.cloudCutoff, n1 := c.densityIndex, n2 := c.densityIndex2 }
    ⟨h.r0, h.cutoff⟩ h.index2 rfl (c.cloudMass * Envelope.solarMass)
  unfold RunConfig.reference RunConfig.atmosphere
  rw [e, Outcome.bind_ok, e2, Outcome.map_ok, e1]

example : (RunConfig.mk 256 2 (3 * 10 ^ 8) (3 * 10 ^ 10) (2 / 100) 2 6 1).reference
    = .ok ⟨3 * 10 ^ 8, 2 / 100 * Envelope.solarMass, 3 * 10 ^ 8 / Envelope.lightSpeed⟩ :=
  reference_units (by constructor <;> norm_num)

/-- **C102 fails for the printed units.** The reference mass that is printed does not depend on the configured mass of the cloud, which is the one used; for
every configuration with an inner radius inside of the cloud all configured masses but one give a wrong print. -/
theorem printed_units_violated (c : RunConfig) (h : c.Sensible) {rc : ℝ} (hrc : c.envelope.cloudBoundary c.jetDelayTime = .ok rc) (hr0 : c.innerRadius < rc) :
    ∃ M, ∀ m, 0 < m → ∃ u v E, ({ c with cloudMass := m } : RunConfig).reference = .ok u ∧ ({ c with cloudMass := m } : RunConfig).printed = .ok (v, E)
      ∧ v.length = u.length ∧ v.time = u.time ∧ v.mass = M ∧ (v.mass = u.mass → m = M / Envelope.solarMass) := by
  obtain ⟨ρ, M, -, -, -, hM⟩ := Envelope.cloud_mass (envelope_sensible h) h.delay hrc hr0
  refine ⟨M + c.envelope.envelopMass, fun m hm => ?_⟩
  have h' : ({ c with cloudMass := m } : RunConfig).Sensible := ⟨h.nr, h.decades, h.cells, h.fits, h.r0, h.cutoff, h.index2, hm, h.delay⟩
  refine ⟨_, ⟨c.envelope.innerRadius, M + c.envelope.envelopMass, c.envelope.innerRadius / Envelope.lightSpeed⟩,
    (M + c.envelope.envelopMass) * (Envelope.lightSpeed * Envelope.lightSpeed), reference_units h', ?_, rfl, rfl, rfl, fun hv => ?_⟩
  · show (c.envelope.totalMass c.jetDelayTime).map _ = _
    rw [hM, Outcome.map_ok]
    rfl
  · have hv : M + c.envelope.envelopMass = m * Envelope.solarMass := hv
    rw [hv]
    have := solarMass_pos
    field_simp

theorem linspace_line (a b : ℝ) (n : Nat) (hn : n + 1 < 2 ^ 64) : Line (linspace a b (n + 1)) (n + 1) (fun k => a + (b - a) * k / n) := by
  have hw : wsub (n + 1) 1 = n := by
    unfold wsub
    omega
  refine ⟨rfl, fun k _ => ?_⟩
  unfold linspace
  dsimp only
  rw [hw]

theorem countAfter_ok {n : Nat} (h : n + 1 < 2 ^ 31) : countAfter (n : Int) = .ok (n + 1) := by
  unfold countAfter
  rw [if_neg (by omega)]
  congr 1
  omega

/-- A negative `int` becomes a count just below 2^64. -/
example : countAfter (-1) = .ok 0 ∧ countAfter (-2) = .ok (2 ^ 64 - 1) ∧ countAfter (-2 ^ 31) = .ok (2 ^ 64 - 2 ^ 31 + 1) := by decide

theorem wedge_pos {r0 r1 q0 q1 : ℝ} (h0 : 0 < r0) (h1 : r0 < r1) (hq0 : 0 ≤ q0) (hq : q0 < q1) (hq1 : q1 ≤ π) : 0 < wedge r0 r1 q0 q1 := by
  have hc : cos q1 < cos q0 := cos_lt_cos_of_nonneg_of_le_pi hq0 hq1 hq
  have hr : r0 ^ 3 < r1 ^ 3 := pow_lt_pow_left₀ h1 h0.le (by norm_num)
  unfold wedge
  have := pi_pos
  have a : 0 < r1 ^ 3 - r0 ^ 3 := by linarith
  have b : 0 < cos q0 - cos q1 := by linarith
  positivity

/-- The conversion of a `double` rounds towards zero, and has a value exactly if the rounded number is an `int`. -/
theorem toInt_iff (x : ℝ) (n : Int) : toInt x = .ok n ↔ -2 ^ 31 ≤ n ∧ n < 2 ^ 31 ∧ (0 ≤ x → (n : ℝ) ≤ x ∧ x < n + 1) ∧ (x < 0 → (n : ℝ) - 1 < x ∧ x ≤ n) := by
  unfold toInt
  constructor
  · intro h
    by_cases hx : x < 2 ^ 31 ∧ -2 ^ 31 - 1 < x
    · rw [if_pos hx] at h
      obtain rfl := Outcome.ok.inj h
      by_cases h0 : 0 ≤ x
      · rw [if_pos h0]
        have := Int.floor_nonneg.2 h0
        exact ⟨by omega, Int.floor_lt.2 (by exact_mod_cast hx.1), fun _ => ⟨Int.floor_le x, Int.lt_floor_add_one x⟩, fun h => absurd h (not_lt.2 h0)⟩
      · rw [if_neg h0]
        have h1 : ⌈x⌉ ≤ 0 := Int.ceil_le.2 (by exact_mod_cast (not_le.1 h0).le)
        have h2 : (-2 ^ 31 - 1 : Int) < ⌈x⌉ := Int.lt_ceil.2 (by exact_mod_cast hx.2)
        exact ⟨by omega, by omega, fun h => absurd h h0, fun _ => ⟨by have := Int.ceil_lt_add_one x; linarith, Int.le_ceil x⟩⟩
    · rw [if_neg hx] at h
      cases h
  · rintro ⟨h1, h2, h3, h4⟩
    have h1' : (-2 ^ 31 : ℝ) ≤ n := by exact_mod_cast h1
    have h2' : (n : ℝ) + 1 ≤ 2 ^ 31 := by exact_mod_cast h2
    by_cases h0 : 0 ≤ x
    · obtain ⟨a, b⟩ := h3 h0
      rw [if_pos ⟨by linarith, by norm_num at *; linarith⟩, if_pos h0, Int.floor_eq_iff.2 ⟨a, b⟩]
    · obtain ⟨a, b⟩ := h4 (not_le.1 h0)
      rw [if_pos ⟨by norm_num at *; linarith, by linarith⟩, if_neg h0, Int.ceil_eq_iff.2 ⟨a, b⟩]

/-- Values near the ends of the range. -/
example : toInt (2 ^ 31 - 1 / 2) = .ok (2 ^ 31 - 1) ∧ toInt (-2 ^ 31 - 1 / 2) = .ok (-2 ^ 31) ∧ (∀ n, toInt (2 ^ 31) ≠ .ok n) ∧ ∀ n, toInt (-2 ^ 31 - 1) ≠ .ok n := by
  refine ⟨(toInt_iff _ _).2 ?_, (toInt_iff _ _).2 ?_, fun n h => ?_, fun n h => ?_⟩
  · norm_num
  · norm_num
  · obtain ⟨h1, h2, h3, -⟩ := (toInt_iff _ _).1 h
    have := (h3 (by norm_num)).2
    have h2' : (n : ℝ) + 1 ≤ 2 ^ 31 := by exact_mod_cast h2
    linarith
  · obtain ⟨h1, h2, -, h4⟩ := (toInt_iff _ _).1 h
    have := (h4 (by norm_num)).2
    have h1' : (-2 ^ 31 : ℝ) ≤ n := by exact_mod_cast h1
    have := (h4 (by norm_num)).1
    linarith

/-- **C102, start.** The program starts with a grid from the inner radius over the given number of decades, and from pole to pole, whose cells are all of positive volume, and fills each
cell with gas of the density and velocity that the envelope has at its centre, at rest in angle, a million times colder than its rest energy. -/
theorem new_solution {c : RunConfig} (h : c.Sensible) : ∃ (s : Solution) (m n : Nat) (r q : Nat → ℝ) (u P : Nat → Nat → Vec 5 ℝ) (k : ℝ), newSolution c = .ok s ∧ s.time = 0
    ∧ Line s.radial (m + 1) r ∧ Line s.polar (n + 1) q ∧ Grid s.conserved m n u
    ∧ (n : Int) = c.nr ∧ (m : Int) = ⌊c.numDecades * c.nr⌋ ∧ 1 ≤ m
    ∧ (∀ i, i ≤ m → r i = 10 ^ (c.numDecades * i / m)) ∧ (∀ j, j ≤ n → q j = π * j / n)
    ∧ k = c.cloudMass * Envelope.solarMass / c.innerRadius ^ 3
    ∧ ∀ i, i < m → ∀ j, j < n → 0 < wedge (r i) (r (i + 1)) (q j) (q (j + 1)) ∧ Srhd.Physical (P i j)
      ∧ u i j = (fun a => Srhd.toConserved (P i j) (4 / 3) a * wedge (r i) (r (i + 1)) (q j) (q (j + 1)))
      ∧ c.envelope.densityAt ((r i + r (i + 1)) / 2 * c.innerRadius) c.jetDelayTime = .ok (P i j 0 * k)
      ∧ c.envelope.gammaBetaAt ((r i + r (i + 1)) / 2 * c.innerRadius) c.jetDelayTime = .ok (P i j 1)
      ∧ P i j 2 = 0 ∧ P i j 3 = 0 ∧ P i j 4 = P i j 0 / 10 ^ 6 := by
  have he := envelope_sensible h
  have hr0 := h.r0
  have hnr := h.nr
  have hdec := h.decades
  have hcells := h.cells
  have hfits := h.fits
  obtain ⟨n, hn⟩ : ∃ n : Nat, (n : Int) = c.nr := ⟨c.nr.toNat, Int.toNat_of_nonneg (by omega)⟩
  have hnR : (c.nr : ℝ) = n := by exact_mod_cast hn.symm
  have hn1 : 1 ≤ n := by omega
  have hn1R : (1 : ℝ) ≤ n := by exact_mod_cast hn1
  rw [hnR] at hcells hfits
  obtain ⟨m, hm⟩ : ∃ m : Nat, (m : Int) = ⌊c.numDecades * n⌋ :=
    ⟨⌊c.numDecades * n⌋.toNat, Int.toNat_of_nonneg (Int.floor_nonneg.2 (by linarith))⟩
  have hm1 : 1 ≤ m := by
    have : (1 : Int) ≤ ⌊c.numDecades * n⌋ := Int.le_floor.2 (by exact_mod_cast hcells)
    omega
  have hmR : (m : ℝ) ≤ c.numDecades * n := by
    have := Int.floor_le (c.numDecades * n)
    rw [← hm] at this
    exact_mod_cast this
  have hmn : (m + 1) * (n + 1) < 2 ^ 31 := by
    have : ((m : ℝ) + 1) * (n + 1) < 2 ^ 31 := lt_of_le_of_lt (mul_le_mul_of_nonneg_right (by linarith) (by linarith)) hfits
    exact_mod_cast this
  have b1 : m + 1 ≤ (m + 1) * (n + 1) := Nat.le_mul_of_pos_right _ (by omega)
  have b2 : n + 1 ≤ (m + 1) * (n + 1) := Nat.le_mul_of_pos_left _ (by omega)
  have b3 : m * n ≤ (m + 1) * (n + 1) := Nat.mul_le_mul (by omega) (by omega)
  have hn31 : (n : ℝ) < 2 ^ 31 := by exact_mod_cast (show n < 2 ^ 31 by omega)
  have hint : toInt (c.numDecades * c.nr) = .ok (m : Int) := by
    unfold toInt
    rw [hnR, if_pos, if_pos (by linarith), hm]
    constructor
    · nlinarith
    · nlinarith
  have hm0 : (0 : ℝ) < m := by exact_mod_cast hm1
  have hn0 : (0 : ℝ) < n := by linarith
  obtain ⟨rv, e1, hrv⟩ := ((linspace_line 0 c.numDecades m (by omega)).map fun y => (10 : ℝ) ^ y).evaluate (by omega)
  obtain ⟨qv, e2, hqv⟩ := (linspace_line 0 π n (by omega)).evaluate (by omega)
  obtain ⟨V, e3, hV⟩ := cellVolumes_grid hrv hqv (by omega) (by omega)
  obtain ⟨X, e4, hX⟩ := cellCentroids_grid hrv hqv (by omega) (by omega)
  set r : Nat → ℝ := fun k => (10 : ℝ) ^ (0 + (c.numDecades - 0) * k / m) with hr
  set q : Nat → ℝ := fun k => 0 + (π - 0) * k / n with hq
  have hrpos : ∀ i, 0 < r i := fun i => rpow_pos_of_pos (by norm_num) _
  have hrmono : ∀ i, r i < r (i + 1) := by
    intro i
    refine rpow_lt_rpow_of_exponent_lt (by norm_num) ?_
    push_cast
    have : 0 < c.numDecades / m := by positivity
    have e : 0 + (c.numDecades - 0) * ((i : ℝ) + 1) / m = 0 + (c.numDecades - 0) * i / m + c.numDecades / m := by
      field_simp
      ring
    rw [e]
    linarith
  have hq0 : ∀ j, 0 ≤ q j := by
    intro j
    have := pi_pos
    simp only [hq, sub_zero, zero_add]
    positivity
  have hqmono : ∀ j, q j < q (j + 1) := by
    intro j
    have := pi_pos
    have : 0 < π / n := by positivity
    have e : q (j + 1) = q j + π / n := by
      simp only [hq]
      push_cast
      field_simp
      ring
    rw [e]
    linarith
  have hqpi : ∀ j, j < n → q (j + 1) ≤ π := by
    intro j hj
    have hj' : ((j + 1 : Nat) : ℝ) ≤ n := by exact_mod_cast hj
    simp only [hq, sub_zero, zero_add]
    rw [div_le_iff₀ hn0]
    exact mul_le_mul_of_nonneg_left hj' pi_pos.le
  have hk : 0 < c.cloudMass * Envelope.solarMass / c.innerRadius ^ 3 := by
    have := solarMass_pos
    have := h.mass
    positivity
  obtain ⟨rc, r1, hrc, hr1, p1, p2, p3⟩ := Envelope.boundaries he h.delay
  obtain ⟨D1, D2, D3⟩ := Envelope.density_at he h.delay hrc hr1
  have hcell : ∀ x : ℝ, 0 < x → ∃ P : Vec 5 ℝ, c.initial ⟨c.innerRadius, c.cloudMass * Envelope.solarMass, c.innerRadius / Envelope.lightSpeed⟩ (x, 0) = .ok P
      ∧ Srhd.Physical P ∧ c.envelope.densityAt (x * c.innerRadius) c.jetDelayTime = .ok (P 0 * (c.cloudMass * Envelope.solarMass / c.innerRadius ^ 3))
      ∧ c.envelope.gammaBetaAt (x * c.innerRadius) c.jetDelayTime = .ok (P 1) ∧ P 2 = 0 ∧ P 3 = 0 ∧ P 4 = P 0 / 10 ^ 6 := by
    intro x hx
    have hx' : 0 < x * c.innerRadius := by positivity
    obtain ⟨d, hd, hdpos⟩ : ∃ d, c.envelope.densityAt (x * c.innerRadius) c.jetDelayTime = .ok d ∧ 0 < d := by
      rcases le_total (x * c.innerRadius) rc with h1 | h1
      · obtain ⟨d, -, h2, h3⟩ := D2 _ hx' h1
        exact ⟨_, h3, mul_pos h2 (rpow_pos_of_pos (div_pos hx' p1) _)⟩
      · rcases le_total (x * c.innerRadius) r1 with h2 | h2
        · obtain ⟨_, _, d, -, -, -, h3, h4⟩ := D1 _ h1 h2
          exact ⟨d, h4, h3⟩
        · obtain ⟨d, -, h3, h4⟩ := D3 _ h2
          have : 0 < r1 := p1.trans_le p2
          exact ⟨_, h4, by positivity⟩
    obtain ⟨v, hv, -⟩ := Envelope.velocity_at he h.delay hrc hr1 hx'
    obtain ⟨gb, hgb, -⟩ := Outcome.map_eq_ok.1 hv
    refine ⟨![d / (c.cloudMass * Envelope.solarMass / c.innerRadius ^ 3), gb, 0, 0,
      d / (c.cloudMass * Envelope.solarMass / c.innerRadius ^ 3) * (1 / 10 ^ 6)], ?_, ⟨?_, ?_⟩, ?_, hgb, rfl, rfl, ?_⟩
    · unfold RunConfig.initial UnitSystem.massDensity
      dsimp only
      rw [hd, Outcome.bind_ok, Atmosphere.div_pos_ok (by positivity), Outcome.bind_ok, Atmosphere.div_pos_ok hk, Outcome.bind_ok, hgb, Outcome.map_ok]
    · exact div_pos hdpos hk
    · exact mul_pos (div_pos hdpos hk) (by norm_num)
    · rw [hd]
      refine congrArg Outcome.ok ?_
      exact (div_mul_cancel₀ d hk.ne').symm
    · show d / _ * (1 / 10 ^ 6) = d / _ / 10 ^ 6
      ring
  have hmid : ∀ i, 0 < (r i + r (i + 1)) / 2 := fun i => by
    have := hrpos i
    have := hrpos (i + 1)
    linarith
  choose! P hP using fun i => hcell ((r i + r (i + 1)) / 2) (hmid i)
  have hXm := hX.mapO (u := c.initial ⟨c.innerRadius, c.cloudMass * Envelope.solarMass, c.innerRadius / Envelope.lightSpeed⟩) (g := fun i _ => P i)
    fun i _ j _ => (hP i).1
  obtain ⟨U, e5, hU⟩ := (hXm.map fun P => Srhd.toConserved P (4 / 3)).binaryOp hV scale
  obtain ⟨U', e6, hU'⟩ := hU.evaluate hm1 hn1 (by omega)
  refine ⟨⟨0, rv, qv, U'⟩, m, n, r, q, _, fun i _ => P i, _, ?_, rfl, hrv, hqv, hU', hn, by rw [hm, hnR], hm1, fun i _ => ?_, fun j _ => ?_, rfl, fun i hi j hj => ?_⟩
  · unfold newSolution
    rw [reference_units h, Outcome.bind_ok, hint, Outcome.bind_ok, countAfter_ok (by omega), Outcome.bind_ok, e1, Outcome.bind_ok, ← hn, countAfter_ok (by omega),
      Outcome.bind_ok, e2, Outcome.bind_ok, e3, Outcome.bind_ok, e4, Outcome.bind_ok, e5, Outcome.bind_ok, e6, Outcome.bind_ok]
  · simp only [hr, sub_zero, zero_add]
  · simp only [hq, sub_zero, zero_add]
  · obtain ⟨-, g2, g3, g4, g5, g6, g7⟩ := hP i
    exact ⟨wedge_pos (hrpos i) (hrmono i) (hq0 j) (hqmono j) (hqpi j hj), g2, rfl, g3, g4, g5, g6, g7⟩

theorem freeze_column {α : Type} {A : Arr 2 α} {m n : Nat} {f : Nat → Nat → α} (h : Grid A m n f) {j : Nat} (hj : j < n) :
    ∃ B : Arr 1 α, freezeAxis 1 j A = .ok B ∧ Line B m (fun i => f i j) := by
  obtain ⟨h0, h1, h2⟩ := h
  have e1 : removeElements (T := 2) 1 A.shape (fun _ : Fin 1 => 1) = .ok (fun _ => m) := by
    unfold removeElements
    simp only [List.ofFn_succ, List.ofFn_zero, keepFrom]
    simp [h0]
  have e2 : ∀ i : Ix 1, insertElements (S := 1) 2 i (fun _ : Fin 1 => 1) (fun _ => j) = .ok ![i 0, j] := by
    intro i
    unfold insertElements
    simp only [List.ofFn_succ, List.ofFn_zero, show List.range 2 = [0, 1] from rfl, insertLoop]
    simp
    funext k
    fin_cases k <;> rfl
  refine ⟨⟨fun _ => m, fun i => A.get ![i 0, j]⟩, ?_, rfl, fun k hk => h2 k hk j hj⟩
  unfold freezeAxis freezeAxes
  rw [if_neg (by simp), e1, Outcome.bind_ok]
  simp only [e2, Outcome.bind_ok]

/-- **C103.** The solid angles of the bins in angle are exact and make up the whole sphere; the energies in the bins make up the total energy on the grid, in the
units of the program. -/
theorem angular_fields (w : UnitSystem) (s : Solution) {m n : Nat} {r q : Nat → ℝ} {u : Nat → Nat → Vec 5 ℝ} (hr : Line s.radial (m + 1) r) (hq : Line s.polar (n + 1) q)
    (hu : Grid s.conserved m n u) (hm : m + 1 < 2 ^ 31) (hn : n + 1 < 2 ^ 31) (hr0 : r 0 ≠ 0) :
    ∃ A y, angularFields w s = .ok A ∧ Line A n y ∧ (∀ j, j < n → (y j).1 = ∫ t in q j..q (j + 1), 2 * π * sin t)
      ∧ (q 0 = 0 → q n = π → ∑ j ∈ Finset.range n, (y j).1 = 4 * π)
      ∧ (∀ j, j < n → (y j).2 = (∑ i ∈ Finset.range m, u i j 4) * (w.mass * Envelope.lightSpeed ^ 2))
      ∧ ∑ j ∈ Finset.range n, (y j).2 = (∑ i ∈ Finset.range m, ∑ j ∈ Finset.range n, u i j 4) * (w.mass * Envelope.lightSpeed ^ 2) := by
  obtain ⟨A, e1, hA⟩ := radialFaceAreas_grid hr hq hm hn
  have hsize : wsub (volume s.polar.shape) 1 = n := by
    rw [hq.volume hn]
    unfold wsub
    omega
  have hfields : Line (⟨fun _ => wsub (volume s.polar.shape) 1, fun j =>
      (A.get ![0, j 0]).bind fun a => (s.radial.get fun _ => 0).bind fun r =>
      (Atmosphere.div a r).bind fun b => (Atmosphere.div b r).bind fun solid =>
      (freezeAxis 1 (j 0) s.conserved).bind fun uj =>
      (sum ((uj.map fun x => x 4).map fun e => e * w.energy)).map fun E => (solid, E)⟩ : Arr 1 (ℝ × ℝ)) n
      (fun j => (2 * π * (cos (q j) - cos (q (j + 1))), (∑ i ∈ Finset.range m, u i j 4) * (w.mass * Envelope.lightSpeed ^ 2))) := by
    refine ⟨hsize, fun j hj => ?_⟩
    dsimp only
    obtain ⟨B, e2, hB⟩ := freeze_column hu hj
    rw [hA.2.2 0 (by omega) j hj, Outcome.bind_ok, hr.2 0 (by omega), Outcome.bind_ok, Atmosphere.div, if_neg hr0, Outcome.bind_ok, Atmosphere.div,
      if_neg hr0, Outcome.bind_ok, e2, Outcome.bind_ok, ((hB.map fun x => x 4).map fun e => e * w.energy).sum (by omega), Outcome.map_ok, ← Finset.sum_mul]
    refine congrArg Outcome.ok (Prod.ext ?_ rfl)
    show zone (r 0) (q j) (q (j + 1)) / r 0 / r 0 = _
    unfold zone
    field_simp
  obtain ⟨F, e3, hF⟩ := hfields.evaluate (by omega)
  refine ⟨F, _, ?_, hF, fun j _ => ?_, fun h0 hpi => ?_, fun j _ => rfl, ?_⟩
  · unfold angularFields
    rw [e1, Outcome.bind_ok, e3]
  · rw [intervalIntegral.integral_const_mul, integral_sin]
  · dsimp only
    rw [← Finset.mul_sum, Finset.sum_range_sub', h0, hpi, cos_zero, cos_pi]
    ring
  · rw [← Finset.sum_mul, Finset.sum_comm]

/-- The hypotheses are met by the state the program starts from. -/
example {c : RunConfig} (h : c.Sensible) (w : UnitSystem) : ∃ (s : Solution) (A : Arr 1 (ℝ × ℝ)) (n : Nat) (y : Nat → ℝ × ℝ), newSolution c = .ok s ∧ angularFields w s = .ok A ∧
    (n : Int) = c.nr ∧ Line A n y ∧ ∑ j ∈ Finset.range n, (y j).1 = 4 * π := by
  obtain ⟨s, m, n, r, q, u, P, k, e, -, h1, h2, h3, h4, h5, h6, h7, h8, -, h9⟩ := new_solution h
  have hn1 : 1 ≤ n := by have := h.nr; omega
  have hmR : (m : ℝ) ≤ c.numDecades * c.nr := by
    have := Int.floor_le (c.numDecades * c.nr)
    rw [← h5] at this
    exact_mod_cast this
  have hnR : (c.nr : ℝ) = n := by exact_mod_cast h4.symm
  have hfits := h.fits
  rw [hnR] at hmR hfits
  have hmn : (m + 1) * (n + 1) < 2 ^ 31 := by
    have : ((m : ℝ) + 1) * (n + 1) < 2 ^ 31 := lt_of_le_of_lt (mul_le_mul_of_nonneg_right (by linarith) (by positivity)) hfits
    exact_mod_cast this
  have b1 : m + 1 ≤ (m + 1) * (n + 1) := Nat.le_mul_of_pos_right _ (by omega)
  have b2 : n + 1 ≤ (m + 1) * (n + 1) := Nat.le_mul_of_pos_left _ (by omega)
  obtain ⟨A, y, g1, g2, -, g3, -⟩ := angular_fields w s h1 h2 h3 (by omega) (by omega) (by
    rw [h7 0 (by omega)]
    exact (rpow_pos_of_pos (by norm_num) _).ne')
  refine ⟨s, A, n, y, e, g1, h4, g2, g3 ?_ ?_⟩
  · rw [h8 0 (by omega)]
    simp
  · rw [h8 n le_rfl]
    have : (n : ℝ) ≠ 0 := by positivity
    field_simp

end Verif.Cloud
