import Verif.Lemmas.BinarySetup
import Verif.Props.FluxCorrection

/-!
# C93: the binary program starts from consistent data
-/

namespace Verif.Binary

open Verif Verif.Nd Verif.Tree Iso2d Geometry TwoBody

variable {sh : Nat → Outcome Nat}

theorem start_state {c : RunConfig} (hc : Sensible c) : ∃ b, fullTwoBodyState { zeroElements with elements := c.elements } 0 = .ok b
    ∧ 0 < b.body1.mass ∧ 0 < b.body2.mass := by
  have hE : Elliptic c.elements := ⟨hc.separation, one_pos, hc.massRatio, hc.eccentricity.1, lt_of_le_of_lt hc.eccentricity.2 (by norm_num)⟩
  obtain ⟨b, hb⟩ := full_returns_partial { zeroElements with elements := c.elements } 0 hc.separation one_pos hc.massRatio hc.eccentricity.1
    hc.eccentricity.2
  obtain ⟨hp, _⟩ := pair_of_full (p := { zeroElements with elements := c.elements }) hE hb
  exact ⟨b, hb, hp.m1, hp.m2⟩

/-- **C93**: from a sensible configuration, whatever the rule of refinement, the program makes its mesh and its initial state and does not fail.  The mesh
covers the domain with square blocks, neighbours differ by one level at most; centers, areas and damping rates belong to its cells.  The gas is the
disk, sampled in the middles of the cells, and of positive density; the binary is bound.  The number of cells in a block must be even or the domain be divided,
so that the origin is not the middle of a cell. -/
theorem start_partial (hs : TotalShift sh) {c : RunConfig} (hc : Sensible c) (pred : Nat → ℝ → Bool)
    (heven : c.blockSize % 2 = 0 ∨ ∃ l, l < c.depth ∧ ∀ ρ, pred l ρ = true) :
    ∃ (n : Nat) (m : SolverData) (s : Solution) (b : State),
      (∀ fuel, n ≤ fuel → createSolverData sh pred fuel c = .ok m ∧ createSolution sh pred fuel c = .ok s)
      ∧ MeshData c.conserveLinear m c.depth c.blockSize
      ∧ StateData c.conserveLinear m c.blockSize s (fun i x y => startOf c.conserveLinear c (cellCenter c.domainRadius c.blockSize i x y)) b
      ∧ Blocks m.vertices (if c.conserveLinear then m.initialU else m.initialQ) c.blockSize c.blockSize
        (fun i x y => startOf c.conserveLinear c (cellCenter c.domainRadius c.blockSize i x y))
      ∧ Blocks m.vertices m.bufferRate c.blockSize c.blockSize (fun i x y => bufferRate c (cellCenter c.domainRadius c.blockSize i x y))
      ∧ Elliptic s.orbit.elements ∧ m.conserveLinear = c.conserveLinear ∧ m.params.domainRadius = c.domainRadius ∧ m.params.sinkRate = c.sinkRate
      ∧ m.fixedDt = c.fixedDt ∧ s.time = 0 ∧ (c.conserveLinear = false → s.u = emptyTree)
      ∧ ((∃ l, l < c.depth ∧ ∀ ρ, pred l ρ = true) → ∀ i B, LeafAt m.vertices i B → 1 ≤ i.level)
      ∧ ∃ h > 0, (∃ i B, LeafAt m.vertices i B ∧ h = cellSize c.domainRadius c.blockSize i)
        ∧ (∀ i B, LeafAt m.vertices i B → h ≤ cellSize c.domainRadius c.blockSize i)
        ∧ m.params.gstSuppr = c.sourceTermSoftening * h
        ∧ ∃ v ≥ 1, m.recommendedStep = h / v * c.cflNumber := by
  obtain ⟨n, V, hV, hSh, hB, hdiv⟩ := vertices_ok hc.block hc.bound hc.depth hs pred
  have hN := hc.block
  have hb := hc.bound
  obtain ⟨h1, h2⟩ := grid_small hb
  have hoff : ∀ i B, LeafAt V i B → i.level ≠ 0 ∨ c.blockSize % 2 = 0 := by
    intro i B hi
    rcases heven with h | h
    · exact Or.inr h
    · have := hdiv h i B hi
      omega
  obtain ⟨dx, edx, sdx, hdx⟩ := hB.mapV (F := blockStep 0) (P := fun i v => v = cellSize c.domainRadius c.blockSize i) fun i B _ h => step_ok hN hb h 0
  obtain ⟨dy, edy, sdy, hdy⟩ := hB.mapV (F := blockStep 1) (P := fun i v => v = cellSize c.domainRadius c.blockSize i) fun i B _ h => step_ok hN hb h 1
  obtain ⟨vm, evm, _, _⟩ := hB.mapV (F := blockSpeed c) (P := fun _ v => 0 ≤ v) fun i B hi h => speed_ok hc hi (hoff i B hi) h
  obtain ⟨br, ebr, hbr⟩ := hB.mapM (F := blockBuffer c) fun i B _ h => buffer_ok hN hb h
  obtain ⟨xc, exc, hxc⟩ := hB.mapM (F := fun B => (blockCenters B).bind evaluate) (g := cellCenter c.domainRadius c.blockSize)
    (k := c.blockSize) (l := c.blockSize) fun i B _ h => by
    obtain ⟨X, eX, hX⟩ := centers_ok h1 h
    obtain ⟨Y, eY, hY⟩ := hX.evaluate hN hN h2
    exact ⟨Y, by rw [eX, Outcome.bind_ok, eY], hY⟩
  obtain ⟨dA, edA, hdA⟩ := hB.mapM (F := blockAreas) fun i B _ h => areas_ok hN hb h
  have hinit := fun lin => hB.mapM (F := initialBlock lin c) fun i B hi h => initial_ok hc hi (hoff i B hi) h lin
  obtain ⟨u, eu, hu⟩ := hinit true
  obtain ⟨q, eq, hq⟩ := hinit false
  obtain ⟨b, eb, hm1, hm2⟩ := start_state hc
  have hmem : ∀ {t : Verif.Tree.Tree 2 ℝ}, SameShape t V → (∀ i v, LeafAt t i v → v = cellSize c.domainRadius c.blockSize i) →
      (∃ i B, LeafAt V i B ∧ t.min = cellSize c.domainRadius c.blockSize i) ∧
      (∀ i B, LeafAt V i B → t.min ≤ cellSize c.domainRadius c.blockSize i) := by
    intro t st ht
    obtain ⟨g1, g2, _, _⟩ := tree_min_max t
    rw [sink_eq_leaves] at g1 g2
    obtain ⟨i, hi⟩ := mem_leaves_leafAt g1
    constructor
    · obtain ⟨B, hB⟩ := (st i).1 ⟨_, hi⟩
      exact ⟨i, B, hB, ht i _ hi⟩
    · intro i B hi
      obtain ⟨v, hv⟩ := (st i).2 ⟨B, hi⟩
      rw [← ht i v hv]
      exact g2 _ (leafAt_mem_leaves hv)
  obtain ⟨⟨i0, B0, hi0, hx0⟩, hxl⟩ := hmem sdx hdx
  obtain ⟨⟨i1, B1, hi1, hy0⟩, hyl⟩ := hmem sdy hdy
  have hmin : min dx.min dy.min = dx.min := min_eq_left (by rw [hy0]; exact hxl i1 B1 hi1)
  have hpos : 0 < dx.min := by rw [hx0]; exact cellSize_pos hc.radius hN i0
  have hmeth := hc.method
  have hm := hc.mach
  have hM : c.machNumber ≠ 0 := by
    intro h
    rw [h] at hm
    norm_num at hm
  obtain ⟨s, es, hcons, hiu, hiq, horb, ht⟩ : ∃ s : Solution, (∀ fuel, n ≤ fuel → createSolution sh pred fuel c = .ok s)
      ∧ cons c.conserveLinear s = (if c.conserveLinear then u else q) ∧ s.u = (if c.conserveLinear then u else emptyTree)
      ∧ s.q = (if c.conserveLinear then emptyTree else q) ∧ s.orbit = { zeroElements with elements := c.elements } ∧ s.time = 0 :=
    ⟨_, fun fuel hf => by
      unfold createSolution
      rw [hV fuel hf, Outcome.bind_ok, eu, Outcome.bind_ok, Outcome.bind_ok, eq, Outcome.bind_ok], by
      unfold cons
      cases c.conserveLinear <;> rfl, rfl, rfl, rfl, rfl⟩
  obtain ⟨m, em, mv, mx, ma, mb, mu, mq, mN, mp, ml, mf, mr⟩ : ∃ m : SolverData, (∀ fuel, n ≤ fuel → createSolverData sh pred fuel c = .ok m)
      ∧ m.vertices = V ∧ m.centers = xc ∧ m.areas = dA ∧ m.bufferRate = br ∧ m.initialU = s.u ∧ m.initialQ = s.q ∧ m.blockSize = c.blockSize
      ∧ (m.params.domainRadius = c.domainRadius ∧ m.params.mach = c.machNumber ∧ m.params.softening = c.softeningRadius
        ∧ m.params.sinkRadius = c.sinkRadius ∧ m.params.sinkRate = c.sinkRate ∧ m.params.gstSuppr = c.sourceTermSoftening * dx.min)
      ∧ m.conserveLinear = c.conserveLinear ∧ m.fixedDt = c.fixedDt ∧ m.recommendedStep = dx.min / max 1 vm.max * c.cflNumber :=
    ⟨_, fun fuel hf => by
      unfold createSolverData
      rw [hV fuel hf, Outcome.bind_ok, edx, Outcome.bind_ok, edy, Outcome.bind_ok, evm, Outcome.bind_ok, ebr, Outcome.bind_ok, exc, Outcome.bind_ok,
        edA, Outcome.bind_ok, es fuel hf, Outcome.bind_ok]
      dsimp only
      rw [if_pos hmeth, hmin], rfl, rfl, rfl, rfl, rfl, rfl, rfl, ⟨rfl, rfl, rfl, rfl, rfl, rfl⟩, rfl, rfl, rfl⟩
  obtain ⟨p1, p2, p3, p4, p5, p6⟩ := mp
  have hini : Blocks m.vertices (if c.conserveLinear then m.initialU else m.initialQ) c.blockSize c.blockSize
        (fun i x y => startOf c.conserveLinear c (cellCenter c.domainRadius c.blockSize i x y)) := by
    rw [mv, mu, mq, hiu, hiq]
    cases c.conserveLinear
    · exact hq
    · exact hu
  refine ⟨n, m, s, b, fun fuel hf => ⟨em fuel hf, es fuel hf⟩, ?_, ?_, hini, ?_, ?_, ml, p1, p5, mf, ht, fun hl => by rw [hiu, hl]; rfl, mv ▸ hdiv, dx.min, hpos, ?_⟩
  · refine ⟨mv ▸ hSh, mN, p1 ▸ hc.radius, by rw [p1, mv]; exact hB, by rw [p1, mv, mx]; exact hxc, by rw [p1, mv, ma]; exact hdA,
      ⟨_, by rw [mv, mb]; exact hbr⟩, ⟨_, hini⟩⟩
  · refine ⟨?_, fun i B hi x _ y _ => ?_, by rw [horb, ht]; exact eb, ⟨p2 ▸ hM, p3 ▸ hc.softening.ne', hm1, hm2⟩, p4 ▸ hc.sink,
      fun _ => p6 ▸ mul_ne_zero hc.sourceTerm hpos.ne', fun _ i B hi => hoff i B (mv ▸ hi)⟩
    · rw [mv, hcons]
      cases c.conserveLinear
      · exact hq
      · exact hu
    · have := hc.sigma_pos (Real.sqrt ((cellCenter c.domainRadius c.blockSize i x y).1 ^ 2 + (cellCenter c.domainRadius c.blockSize i x y).2 ^ 2))
      unfold startOf
      cases c.conserveLinear <;> exact this
  · rw [mv, mb]
    exact hbr
  · rw [horb]
    exact ⟨hc.separation, one_pos, hc.massRatio, hc.eccentricity.1, lt_of_le_of_lt hc.eccentricity.2 (by norm_num)⟩
  · rw [mv]
    exact ⟨⟨i0, B0, hi0, hx0⟩, hxl, p6, max 1 vm.max, le_max_left _ _, mr⟩

/-- The default values of the options. -/
noncomputable def defaults : RunConfig where
  domainRadius := 12
  blockSize := 24
  depth := 4
  softeningRadius := 5 / 100
  diskRadius := 2
  machNumber := 10
  diskMass := 1 / 1000
  ambientDensity := 1 / 10000
  mdot := 0
  counterRotate := false
  separation := 1
  massRatio := 1
  eccentricity := 0
  conserveLinear := true
  bufferDampingRate := 10
  alphaCutoffRadius := 0
  alpha := 1 / 10
  nu := 0
  sinkRate := 1
  sinkRadius := 5 / 100
  sourceTermSoftening := 1
  plmTheta := 18 / 10
  beginLive := 10 ^ 6
  axisymmetricCs2 := false
  fixedDt := false
  rkOrder := 2
  noAccretionForce := false
  densityFloor := 0
  cflNumber := 4 / 10
  reconstructMethod := "plm"

/-- The rule of refinement with the default values: `focus_factor` and `focus_index` are two.  In the code the power zero of the level zero is in the
denominator, and every radius is less than infinity. -/
noncomputable def defaultFocus (l : Nat) (r : ℝ) : Bool := open Classical in decide (l = 0 ∨ r < 2 / (l : ℝ) ^ 2)

/-- Non-vacuity: the default values are sensible, also in the mode that conserves angular momentum. -/
theorem defaults_sensible (lin : Bool) : Sensible { defaults with conserveLinear := lin } := by
  constructor <;> norm_num [defaults]

example : ∃ n m s, ∀ fuel, n ≤ fuel → createSolverData exShift defaultFocus fuel defaults = .ok m
    ∧ createSolution exShift defaultFocus fuel defaults = .ok s := by
  obtain ⟨n, m, s, _, h, _⟩ := start_partial exShift_total (defaults_sensible true) defaultFocus (.inl (by norm_num [defaults]))
  exact ⟨n, m, s, h⟩

/-- The first step of a run: every step that is short enough succeeds. -/
theorem first_step_partial (hs : TotalShift sh) {c : RunConfig} (hc : Sensible c) (pred : Nat → ℝ → Bool)
    (heven : c.blockSize % 2 = 0 ∨ ∃ l, l < c.depth ∧ ∀ ρ, pred l ρ = true) :
    ∃ (n : Nat) (m : SolverData) (s : Solution), (∀ fuel, n ≤ fuel → createSolverData sh pred fuel c = .ok m ∧ createSolution sh pred fuel c = .ok s) ∧
      ∀ (fuel : Nat) (z : Fin 9 → Bool) (safe : Bool), ∃ ε > 0, ∀ dt, 0 ≤ dt → dt ≤ ε → ∃ s1, advance sh (fuel + 1) z m s dt safe = .ok s1 := by
  obtain ⟨n, m, s, b, h, h1, h2, _, _, hE, hl, _, hr, _⟩ := start_partial hs hc pred heven
  refine ⟨n, m, s, h, fun fuel z safe => ?_⟩
  rw [← hl] at h1 h2
  exact short_step hs h1 h2 hE (by rw [hr]; exact hc.sinkRate) fuel z safe

/-- Non-vacuity of the theorems on steps: their hypotheses are met by the initial state of a run with the default values, in both modes. -/
theorem step_exists (lin : Bool) (fuel : Nat) (z : Fin 9 → Bool) (safe : Bool) : ∃ (m : SolverData) (s : Solution) (f : Index 2 → Nat → Nat → Tri)
    (b : State) (dt : ℝ) (s1 : Solution), m.conserveLinear = lin ∧ MeshData m.conserveLinear m 4 24 ∧ StateData m.conserveLinear m 24 s f b
      ∧ Elliptic s.orbit.elements ∧ 0 < m.params.sinkRate ∧ 0 < dt ∧ m.rkOrder = 1 ∧ m.fixedDt = true ∧ m.recommendedStep = dt
      ∧ advance exShift (fuel + 1) z m s dt safe = .ok s1 := by
  obtain ⟨n, m, s, b, _, h1, h2, _, _, hE, hl, _, hr, _⟩ := start_partial exShift_total (defaults_sensible lin) defaultFocus (.inl (by norm_num [defaults]))
  have hl' : m.conserveLinear = lin := hl
  obtain ⟨f, h2⟩ : ∃ f, StateData lin m 24 s f b := ⟨_, h2⟩
  have h1 : MeshData lin m 4 24 := h1
  rw [← hl'] at h1 h2
  obtain ⟨ε, h0, hε⟩ := short_step exShift_total h1 h2 hE (by rw [hr]; norm_num [defaults]) fuel z safe
  obtain ⟨s1, e1⟩ := hε ε h0.le le_rfl
  refine ⟨{ m with recommendedStep := ε, rkOrder := 1, fixedDt := true }, s,
    f, b, ε, s1, hl', ?_, ?_, hE, ?_, h0, rfl, rfl, rfl, e1⟩
  · exact ⟨h1.shaped, h1.blockSize, h1.radius, h1.vertices, h1.centers, h1.areas, h1.buffer, h1.initial⟩
  · exact ⟨h2.blocks, h2.density, h2.bodies, h2.physical, h2.sink, h2.ramp, h2.offCenter⟩
  · show 0 < m.params.sinkRate
    rw [hr]
    norm_num [defaults]

/-- Non-vacuity of the theorems on the density: a run of one step. -/
example (lin : Bool) (z : Fin 9 → Bool) : ∃ (m : SolverData) (s : Nat → Solution), Shaped m.vertices 4 24 ∧ m.conserveLinear = lin ∧
    NonNegative m.vertices 24 (cons m.conserveLinear (s 0)) ∧ ∀ k, k < 1 → nextSolution exShift 1 z m (s k) = .ok (s (k + 1)) := by
  obtain ⟨m, s, f, b, dt, s1, hl, h1, h2, _, _, _, hk, hf, hd, e⟩ := step_exists lin 0 z false
  refine ⟨m, fun k => if k = 0 then s else s1, h1.shaped, hl, ⟨f, h2.blocks, fun i c hi x hx y hy => (h2.density i c hi x hx y hy).le⟩, fun k hk' => ?_⟩
  obtain rfl : k = 0 := by omega
  show nextSolution exShift 1 z m s = .ok s1
  unfold nextSolution attempt
  rw [if_pos hf, Outcome.bind_ok, if_pos hk, hd, e]

/-! ### Where the start fails -/

theorem writeAll_gets {R : Nat} {α : Type} {A : Arr R α} {st : Ix R} {l : List (Ix R)} {b b' : List α} (h : writeAll A st l b = .ok b') (i : Ix R)
    (hi : i ∈ l) : ∃ v, A.get i = .ok v := by
  induction l generalizing b with
  | nil => cases hi
  | cons j l ih =>
    unfold writeAll at h
    obtain ⟨v, hv, h⟩ := Outcome.bind_eq_ok.1 h
    split at h
    · rcases List.mem_cons.1 hi with rfl | hi
      · exact ⟨v, hv⟩
      · exact ih h hi
    · cases h

/-- An array that was evaluated has all its entries. -/
theorem evaluate_gets {R : Nat} {α : Type} [Inhabited α] {A B : Arr (R + 1) α} (h : evaluate A = .ok B) (hp : ∀ a, 0 < A.shape a)
    (hb : ∀ a, A.shape a < 2 ^ 64) (i : Ix (R + 1)) (hi : InShape A.shape i) : ∃ v, A.get i = .ok v := by
  unfold evaluate at h
  split at h
  · cases h
  · obtain ⟨l, hl, h⟩ := Outcome.bind_eq_ok.1 h
    obtain ⟨buf, hbuf, _⟩ := Outcome.bind_eq_ok.1 h
    obtain ⟨l', hl', hm⟩ := indexes_shape (Or.inl hp) hb
    rw [hl] at hl'
    cases hl'
    exact writeAll_gets hbuf i ((hm i).2 hi)

/-- The start on an unrefined mesh fails if the disk has no values in the middle of a cell. -/
theorem start_needs_profile (hs : TotalShift sh) {c : RunConfig} (hN : 1 ≤ c.blockSize) (hb : (c.blockSize + 2) * (c.blockSize + 2) < 2 ^ 31)
    (hD : c.depth = 0) (pred : Nat → ℝ → Bool) {x y : Nat} (hx : x < c.blockSize) (hy : y < c.blockSize)
    (hp : ∀ P, diskProfile c (cellCenter c.domainRadius c.blockSize .root x y) ≠ .ok P) :
    ∃ n, ∀ fuel, n ≤ fuel → ∀ s, createSolution sh pred fuel c ≠ .ok s := by
  obtain ⟨h1, h2⟩ := grid_small hb
  obtain ⟨n, V, hV, hSh, hB, _⟩ := vertices_ok hN hb (by omega) hs pred
  refine ⟨n, fun fuel hf s h => ?_⟩
  obtain ⟨B, rfl⟩ : ∃ B, V = .leaf B := by
    have hd := hSh.depth
    rw [hD] at hd
    cases V with
    | leaf B => exact ⟨B, rfl⟩
    | node ch =>
      obtain ⟨i, a, hi⟩ := exists_leaf (ch ⟨0, by norm_num⟩)
      have := hd _ _ (NodeAt.inChild ch _ _ _ hi)
      simp [Index.descend] at this
  unfold createSolution at h
  rw [hV fuel hf, Outcome.bind_ok] at h
  obtain ⟨u, hu, _⟩ := Outcome.bind_eq_ok.1 h
  have hg := hB.2 .root B (.here _)
  obtain ⟨X, eX, hX⟩ := centers_ok h1 hg
  unfold Tree.mapM at hu
  obtain ⟨U, hU, _⟩ := Outcome.map_eq_ok.1 hu
  unfold initialBlock at hU
  rw [eX, Outcome.bind_ok, if_pos rfl] at hU
  have hsx : X.shape = ![c.blockSize, c.blockSize] := grid_shape hX
  obtain ⟨v, hv⟩ := evaluate_gets hU (by
    show ∀ a, 0 < X.shape a
    rw [hsx]
    intro a
    fin_cases a <;> exact hN) (by
    show ∀ a, X.shape a < 2 ^ 64
    rw [hsx]
    intro a
    fin_cases a <;> (show c.blockSize < 2 ^ 64; omega)) ![x, y] (by
    show InShape X.shape _
    rw [hsx]
    intro a
    fin_cases a
    · exact hx
    · exact hy)
  unfold Arr.map Arr.mapO at hv
  dsimp only at hv
  rw [hX.2.2 x hx y hy, Outcome.bind_ok] at hv
  obtain ⟨P, hP, _⟩ := Outcome.map_eq_ok.1 hv
  exact hp P hP

/-- **C93** does not hold for an odd number of cells on an unrefined mesh: the middle of the central cell is the origin, and the direction of the
velocity is zero by zero there. -/
theorem start_odd_violated (hs : TotalShift sh) {c : RunConfig} (hb : (c.blockSize + 2) * (c.blockSize + 2) < 2 ^ 31) (hD : c.depth = 0)
    (hodd : c.blockSize % 2 = 1) (pred : Nat → ℝ → Bool) : ∃ n, ∀ fuel, n ≤ fuel → ∀ s, createSolution sh pred fuel c ≠ .ok s := by
  have hN : 1 ≤ c.blockSize := by omega
  refine start_needs_profile hs hN hb hD pred (x := c.blockSize / 2) (y := c.blockSize / 2) (by omega) (by omega) fun P h => ?_
  have e : ∀ a, coordinate c.domainRadius c.blockSize .root a ((c.blockSize / 2 : ℕ) + 1 / 2) = 0 := by
    intro a
    have h1 : (c.blockSize : ℝ) = 2 * (c.blockSize / 2 : ℕ) + 1 := by
      have : c.blockSize = 2 * (c.blockSize / 2) + 1 := by omega
      exact_mod_cast this
    have h2 : (c.blockSize : ℝ) ≠ 0 := by
      have : (0 : ℝ) < c.blockSize := by exact_mod_cast hN
      exact this.ne'
    have h3 : (((c.blockSize / 2 : ℕ) : ℝ) + 1 / 2) = c.blockSize / 2 := by linarith
    rw [h3]
    unfold coordinate cellSize Index.root
    simp only [Nat.cast_zero, pow_zero]
    field_simp
    ring
  have e2 : cellCenter c.domainRadius c.blockSize .root (c.blockSize / 2) (c.blockSize / 2) = (0, 0) := by
    unfold cellCenter
    rw [e, e]
  rw [e2] at h
  unfold diskProfile at h
  dsimp only at h
  rw [if_pos (by simp)] at h
  cases h

/-- Non-vacuity: 25 cells in a block. -/
example : ({ defaults with blockSize := 25, depth := 0 } : RunConfig).blockSize % 2 = 1 := rfl

/-- **C93** does not hold for a disk without an ambient medium on a domain that is wide in terms of the disk: there the pressure drops so steeply that
the square of the rotation speed is negative, the program takes the root of it. -/
theorem start_wide_violated (hs : TotalShift sh) (pred : Nat → ℝ → Bool) :
    ∃ n, ∀ fuel, n ≤ fuel → ∀ s, createSolution sh pred fuel { defaults with depth := 0, ambientDensity := 0, domainRadius := 24 } ≠ .ok s := by
  refine start_needs_profile hs (by norm_num [defaults]) (by norm_num [defaults]) rfl pred (x := 23) (y := 23) (by norm_num [defaults])
    (by norm_num [defaults]) fun P h => ?_
  have e2 : cellCenter 24 24 .root 23 23 = (23, 23) := by
    unfold cellCenter coordinate cellSize Index.root
    norm_num
  change diskProfile _ (cellCenter 24 24 .root 23 23) = _ at h
  rw [e2] at h
  set c : RunConfig := { defaults with depth := 0, ambientDensity := 0, domainRadius := 24 } with hc
  unfold diskProfile at h
  dsimp only at h
  set r := Real.sqrt ((23 : ℝ) * 23 + 23 * 23) with hr
  have h32 : 32 < r := Real.lt_sqrt_of_sq_lt (by norm_num)
  have hs1 : c.s1 = 0 := by simp [RunConfig.s1, hc]
  have e3 : 1 / (r + c.softeningRadius) + c.dpdr r < 0 := by
    unfold RunConfig.dpdr
    rw [hs1]
    have a1 : c.machNumber = 10 := rfl
    have a2 : c.softeningRadius = 5 / 100 := rfl
    have a3 : c.diskRadius = 2 := rfl
    rw [a1, a2, a3]
    have h0 : 0 < r + 5 / 100 := by linarith
    have e : 1 / (r + 5 / 100) + 1 / 10 / 10 / (r + 5 / 100) * (r / 2 * (1 - r / 2) * (1 - 0 / c.sigma r) - 1)
        = (100 + (r / 2 * (1 - r / 2) - 1)) / (100 * (r + 5 / 100)) := by
      field_simp
      ring
    rw [e]
    exact div_neg_of_neg_of_pos (by nlinarith) (by positivity)
  rw [if_pos (Or.inr (Or.inr (Or.inr (Or.inr (Or.inr e3)))))] at h
  cases h

end Verif.Binary
