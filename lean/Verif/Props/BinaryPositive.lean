import Verif.Lemmas.BinaryPositive
import Verif.Props.BinaryTimestep
import Verif.Props.BinaryDiagnostics

/-!
# C109: densities stay positive in the safe mode of the binary program
-/

namespace Verif.Binary

open Verif Verif.Nd Verif.Tree Iso2d Geometry TwoBody

variable {sh : Nat → Outcome Nat}

/-- **C109**, one step of given length: if in the time `dt` signals go at most the part `κ` of a cell along each axis, a step in safe mode takes from each cell at
most the part `16 κ` of its gas by advection, and what sinks and buffer take; if this is less than all of it, the densities after the step are positive.
Neighbouring blocks may differ in resolution.  The cells must not be much larger than the softened distance from the bodies; if the speed of sound is that around a
single mass at the origin, no cell has its middle there. -/
theorem safe_step_positive (hs : TotalShift sh) {lin : Bool} {m : SolverData} {D N : Nat} (hm : MeshData lin m D N) {s : Solution}
    {f : Index 2 → Nat → Nat → Tri} {b : State} (hst : StateData lin m N s f b) {dt κ : ℝ} (hdt : 0 < dt) (hr : 0 ≤ m.params.sinkRate)
    (hax : m.params.axisymmetric = true → ∀ i B, LeafAt m.vertices i B → i.level ≠ 0 ∨ N % 2 = 0)
    (hna : m.params.axisymmetric = false → ∀ i B, LeafAt m.vertices i B → ∀ x, x < N → ∀ y, y < N → ∀ k,
      cellSize m.params.domainRadius N i ≤ 3 / 2 * reach m.params.softening (body b k) (cellCenter m.params.domainRadius N i x y))
    {br : Index 2 → Nat → Nat → ℝ} (hbr : Blocks m.vertices m.bufferRate N N br)
    (hbr0 : ∀ i B, LeafAt m.vertices i B → ∀ x, x < N → ∀ y, y < N → 0 ≤ br i x y)
    {init : Index 2 → Nat → Nat → Tri} (hinit : Blocks m.vertices (if lin then m.initialU else m.initialQ) N N init)
    (hinit0 : ∀ i B, LeafAt m.vertices i B → ∀ x, x < N → ∀ y, y < N → 0 ≤ (init i x y).a)
    {c : Index 2 → Nat → Nat → ℝ}
    (hc : ∀ i B, LeafAt m.vertices i B → ∀ x, x < N → ∀ y, y < N → cs2At m.params b (cellCenter m.params.domainRadius N i x y) = .ok (c i x y))
    (hcfl : ∀ i B, LeafAt m.vertices i B → ∀ x, x < N → ∀ y, y < N →
      dt * (|(momentum lin (f i x y) (cellCenter m.params.domainRadius N i x y)).1 / (f i x y).a| + Real.sqrt (c i x y)) ≤ κ * cellSize m.params.domainRadius N i ∧
      dt * (|(momentum lin (f i x y) (cellCenter m.params.domainRadius N i x y)).2 / (f i x y).a| + Real.sqrt (c i x y)) ≤ κ * cellSize m.params.domainRadius N i)
    (hsum : ∀ i B, LeafAt m.vertices i B → ∀ x, x < N → ∀ y, y < N →
      16 * κ + dt * (drain m.params.sinkRate m.params.sinkRadius b.body1 (cellCenter m.params.domainRadius N i x y) +
        drain m.params.sinkRate m.params.sinkRadius b.body2 (cellCenter m.params.domainRadius N i x y) + br i x y) < 1)
    (fuel : Nat) (z : Fin 9 → Bool) :
    ∃ (u : Quad Tri) (t : Totals) (g : Index 2 → Nat → Nat → Tri), stepCore sh (fuel + 1) z lin m s dt true = .ok (u, t, b) ∧ Blocks m.vertices u N N g ∧
      ∀ i B, LeafAt m.vertices i B → ∀ x, x < N → ∀ y, y < N → 0 < (g i x y).a ∧
        (f i x y).a * (1 - 16 * κ - dt * (drain m.params.sinkRate m.params.sinkRadius b.body1 (cellCenter m.params.domainRadius N i x y) +
          drain m.params.sinkRate m.params.sinkRadius b.body2 (cellCenter m.params.domainRadius N i x y) + br i x y)) ≤ (g i x y).a := by
  have hN := hm.shaped.pos
  have hrd := hm.radius
  obtain ⟨p0, fx, fy, p, gx, gy, eF, hp, hx, hy, hcell, fl0, fl1⟩ := stepFluxes_cells hs hm hst fuel z true
  obtain ⟨u, t, g, e, eC, hg, hS⟩ := stepCore_of_fluxes hs hm hst hdt.le hr hbr hinit eF hp hx hy
  refine ⟨u, t, g, eC, hg, ?_⟩
  have hprim : ∀ i B, LeafAt m.vertices i B → ∀ x, x < N → ∀ y, y < N → (p i x y).a = (f i x y).a ∧
      (momentum lin (f i x y) (cellCenter m.params.domainRadius N i x y)).1 / (f i x y).a = (p i x y).b ∧
      (momentum lin (f i x y) (cellCenter m.params.domainRadius N i x y)).2 / (f i x y).a = (p i x y).c := by
    intro i B hi x hx y hy
    have h0 := hst.density i B hi x hx y hy
    obtain ⟨h1, h2⟩ := recovered_momentum (x := cellCenter m.params.domainRadius N i x y) (fun hl => by rw [hl, if_neg (by decide)]) (hcell i B hi x hx y hy) h0.ne'
    refine ⟨h1, ?_, ?_⟩
    · rw [h2, h1, mul_div_cancel_left₀ _ h0.ne']
    · rw [h2, h1, mul_div_cancel_left₀ _ h0.ne']
  have hcpos : ∀ i B, LeafAt m.vertices i B → ∀ x, x < N → ∀ y, y < N → 0 < c i x y := by
    intro i B hi x hx y hy
    obtain ⟨c', e', h'⟩ := cs2At_pos hst.physical (x := cellCenter m.params.domainRadius N i x y) fun ha => center_ne hrd hN (hax ha i B hi) x y
    rw [hc i B hi x hx y hy] at e'
    obtain rfl := Outcome.ok.inj e'
    exact h'
  have hbound : ∀ i B, LeafAt m.vertices i B → ∀ x, x < N → ∀ y, y < N → Slow (κ / dt * cellSize m.params.domainRadius N i) (p i x y) ∧
      Real.sqrt (c i x y) ≤ κ / dt * cellSize m.params.domainRadius N i := by
    intro i B hi x hx y hy
    obtain ⟨h1, h2⟩ := hcfl i B hi x hx y hy
    obtain ⟨q1, q2, q3⟩ := hprim i B hi x hx y hy
    rw [q2] at h1
    rw [q3] at h2
    have hs0 := Real.sqrt_nonneg (c i x y)
    rw [mul_comm, ← le_div_iff₀ hdt, mul_div_right_comm] at h1 h2
    have a1 := abs_nonneg (p i x y).b
    have a2 := abs_nonneg (p i x y).c
    exact ⟨⟨by rw [q1]; exact hst.density i B hi x hx y hy, by linarith, by linarith⟩, by linarith⟩
  intro i B hi x hx y hy
  have hw := cellSize_pos hrd hN i
  have hK : 0 ≤ κ / dt := by
    have := (Real.sqrt_nonneg _).trans (hbound i B hi x hx y hy).2
    by_contra h
    have := mul_neg_of_neg_of_pos (not_le.1 h) hw
    linarith
  have hface : ∀ a i B, LeafAt m.vertices i B → ∀ x, x < N + 1 → ∀ y, y < N → ∃ c, cs2At m.params b (facePos m.params.domainRadius N a i x y) = .ok c ∧ 0 < c ∧
      Real.sqrt c ≤ 2 * (κ / dt) * cellSize m.params.domainRadius N i := by
    intro a i B hi x hx y hy
    obtain ⟨x', y', d, hx', hy', hd, hA⟩ := facePos_aside m.params.domainRadius a i hx hy hN
    have hw := cellSize_pos hrd hN i
    rw [abs_of_pos hw] at hd
    have hR : Resolved m.params b (cellSize m.params.domainRadius N i) (cellCenter m.params.domainRadius N i x' y') := by
      unfold Resolved
      cases ha : m.params.axisymmetric with
      | true =>
        rw [if_pos rfl]
        exact radius_resolved hrd hN (hax ha i B hi) x' y'
      | false =>
        rw [if_neg (by decide)]
        exact ⟨hna ha i B hi x' hx' y' hy' 0, hna ha i B hi x' hx' y' hy' 1⟩
    obtain ⟨c', e', h1, h2⟩ := cs2At_aside hst.physical hw hd.le hA hR (hc i B hi x' hx' y' hy')
    refine ⟨c', e', h1, ?_⟩
    have h3 := (hbound i B hi x' hx' y' hy').2
    calc Real.sqrt c' ≤ Real.sqrt (2 ^ 2 * c i x' y') := Real.sqrt_le_sqrt (by linarith)
      _ = 2 * Real.sqrt (c i x' y') := by rw [Real.sqrt_mul (by norm_num), Real.sqrt_sq (by norm_num)]
      _ ≤ _ := by linarith
  have hslow : ∀ i c, LeafAt m.vertices i c → ∀ x, x < N → ∀ y, y < N → Slow (κ / dt * cellSize m.params.domainRadius N i) (p i x y) :=
    fun i c hi x hx y hy => (hbound i c hi x hx y hy).1
  have tt : (true = true) = True := by simp
  rw [tt] at fl0 fl1
  obtain ⟨k1, k2⟩ := fl0.mass hm hK hslow (hface 0) hi hx hy
  obtain ⟨k3, k4⟩ := fl1.mass hm hK hslow (hface 1) hi hy hx
  have hf0 := hst.density i B hi x hx y hy
  have hdens := hS.density hi hx hy hf0.le
  have e0 : (turn 0 (p i) x y).a = (f i x y).a := (hprim i B hi x hx y hy).1
  have e1 : (turn 1 (p i) y x).a = (f i x y).a := (hprim i B hi x hx y hy).1
  rw [e0] at k1 k2
  rw [e1] at k3 k4
  have hsm := hsum i B hi x hx y hy
  have hb0 := hbr0 i B hi x hx y hy
  have hi0 := hinit0 i B hi x hx y hy
  have hdiv : ((gx i (x + 1) y - gx i x y).add (gy i (y + 1) x - gy i y x)).a = ((gx i (x + 1) y).a - (gx i x y).a) + ((gy i (y + 1) x).a - (gy i y x).a) := rfl
  rw [hdiv] at hdens
  have hlow : (f i x y).a * (1 - 16 * κ - dt * (drain m.params.sinkRate m.params.sinkRadius b.body1 (cellCenter m.params.domainRadius N i x y) +
      drain m.params.sinkRate m.params.sinkRadius b.body2 (cellCenter m.params.domainRadius N i x y) + br i x y)) ≤ (g i x y).a := by
    refine le_trans ?_ hdens
    generalize drain m.params.sinkRate m.params.sinkRadius b.body1 (cellCenter m.params.domainRadius N i x y) = d1
    generalize drain m.params.sinkRate m.params.sinkRadius b.body2 (cellCenter m.params.domainRadius N i x y) = d2
    generalize cellSize m.params.domainRadius N i = w at *
    have hw2 : 0 < w ^ 2 := by positivity
    have hd : ((gx i (x + 1) y).a - (gx i x y).a + ((gy i (y + 1) x).a - (gy i y x).a)) / w ^ 2 ≤ (f i x y).a * (16 * (κ / dt)) := by
      rw [div_le_iff₀ hw2]
      linarith
    have hd' := mul_le_mul_of_nonneg_left hd hdt.le
    have e2 : dt * ((f i x y).a * (16 * (κ / dt))) = (f i x y).a * (16 * κ) := by field_simp
    rw [e2] at hd'
    have := mul_nonneg hdt.le (mul_nonneg hi0 hb0)
    linarith
  refine ⟨lt_of_lt_of_le (mul_pos hf0 (by linarith)) hlow, hlow⟩

/-- **C109**: in the mode that conserves linear momentum, with steps chosen by the program, the second attempt of a step fails only if the elements of the orbit
cannot be computed.  The step is a tenth of that of the first attempt; it is of first order in time. -/
theorem fallback_partial (hs : TotalShift sh) {m : SolverData} {D N : Nat} (hl : m.conserveLinear = true) (hm : MeshData true m D N) {s : Solution}
    {f : Index 2 → Nat → Nat → Tri} {b : State} (hst : StateData true m N s f b) (hr : 0 ≤ m.params.sinkRate) (hfix : m.fixedDt = false) (hrk : m.rkOrder = 1)
    (h0 : 0 < m.cfl)
    (hax : m.params.axisymmetric = true → ∀ i B, LeafAt m.vertices i B → i.level ≠ 0 ∨ N % 2 = 0)
    (hna : m.params.axisymmetric = false → ∀ i B, LeafAt m.vertices i B → ∀ x, x < N → ∀ y, y < N → ∀ k,
      cellSize m.params.domainRadius N i ≤ 3 / 2 * reach m.params.softening (body b k) (cellCenter m.params.domainRadius N i x y))
    {br : Index 2 → Nat → Nat → ℝ} (hbr : Blocks m.vertices m.bufferRate N N br)
    (hbr0 : ∀ i B, LeafAt m.vertices i B → ∀ x, x < N → ∀ y, y < N → 0 ≤ br i x y)
    {init : Index 2 → Nat → Nat → Tri} (hinit : Blocks m.vertices m.initialU N N init)
    (hinit0 : ∀ i B, LeafAt m.vertices i B → ∀ x, x < N → ∀ y, y < N → 0 ≤ (init i x y).a)
    (hsum : ∀ d, maximumTimestep sh m s = .ok d → ∀ i B, LeafAt m.vertices i B → ∀ x, x < N → ∀ y, y < N →
      8 / 5 * m.cfl + m.cfl * d / 10 * (drain m.params.sinkRate m.params.sinkRadius b.body1 (cellCenter m.params.domainRadius N i x y) +
        drain m.params.sinkRate m.params.sinkRadius b.body2 (cellCenter m.params.domainRadius N i x y) + br i x y) < 1)
    (fuel : Nat) (z : Fin 9 → Bool) :
    ∃ d > 0, maximumTimestep sh m s = .ok d ∧ ∃ (u : Quad Tri) (t : Totals) (g : Index 2 → Nat → Nat → Tri),
      stepCore sh (fuel + 1) z true m s (m.cfl * d / 10) true = .ok (u, t, b) ∧ Blocks m.vertices u N N g ∧
      (∀ i B, LeafAt m.vertices i B → ∀ x, x < N → ∀ y, y < N → 0 < (g i x y).a) ∧
      ∀ E dacc dgrv, stepOrbits m s b t = .ok E → diff s.orbit E.1 = .ok dacc → diff s.orbit E.2 = .ok dgrv →
        (∃ s1, attempt sh (fuel + 1) z m s (m.cfl * d / 10) true = .ok s1 ∧ s1.u = u) ∧ ∀ e, nextSolution sh (fuel + 1) z m s ≠ .throws e := by
  obtain ⟨c, hc, d, hd, ed, hcfl, _⟩ := timestep_partial hs hl hm hst hax
  have hdt : 0 < m.cfl * d / 10 := by positivity
  obtain ⟨u, t, g, eC, hg, hpos⟩ := safe_step_positive hs hm hst (κ := m.cfl / 10) hdt hr hax hna hbr hbr0 hinit hinit0 (fun i B hi x hx y hy => (hc i B hi x hx y hy).2)
    (fun i B hi x hx y hy => by
      obtain ⟨h1, h2⟩ := hcfl i B hi x hx y hy
      have hk : 0 ≤ m.cfl / 10 := by positivity
      have h1 := mul_le_mul_of_nonneg_left h1 hk
      have h2 := mul_le_mul_of_nonneg_left h2 hk
      show m.cfl * d / 10 * (|(f i x y).b / (f i x y).a| + _) ≤ _ ∧ m.cfl * d / 10 * (|(f i x y).c / (f i x y).a| + _) ≤ _
      constructor <;> linarith) (fun i B hi x hx y hy => by
      have := hsum d ed i B hi x hx y hy
      linarith) fuel z
  refine ⟨d, hd, ed, u, t, g, eC, hg, fun i B hi x hx y hy => (hpos i B hi x hx y hy).1, fun E dacc dgrv e1 e2 e3 => ?_⟩
  have hadv : ∃ s1, attempt sh (fuel + 1) z m s (m.cfl * d / 10) true = .ok s1 ∧ s1.u = u := by
    unfold attempt advance advanceMode
    rw [if_pos hrk, hl, eC, Outcome.bind_ok]
    dsimp only
    rw [e1, Outcome.bind_ok, e2, Outcome.bind_ok, e3, Outcome.bind_ok]
    exact ⟨_, validate_ok hs hm (g := g) hg fun i c hi x hx y hy => (hpos i c hi x hx y hy).1.le, rfl⟩
  refine ⟨hadv, fun e h => ?_⟩
  obtain ⟨s1, hs1, _⟩ := hadv
  unfold nextSolution at h
  rw [if_neg (by rw [hfix]; decide), ed, Outcome.map_ok, Outcome.bind_ok] at h
  cases ha : attempt sh (fuel + 1) z m s (m.cfl * d) false with
  | throws e' =>
    rw [ha] at h
    dsimp only at h
    rw [show m.cfl * d * (1 / 10) = m.cfl * d / 10 by ring, hs1] at h
    cases h
  | ok s2 => rw [ha] at h; cases h
  | ub => rw [ha] at h; cases h
  | diverges => rw [ha] at h; cases h

/-- Non-vacuity: the initial state of a run with the default values, with a softening of one, steps of first order and a small CFL number. -/
example : ∃ (m : SolverData) (s : Solution) (f : Index 2 → Nat → Nat → Tri) (b : State) (br : Index 2 → Nat → Nat → ℝ) (init : Index 2 → Nat → Nat → Tri),
    m.conserveLinear = true ∧ MeshData true m 4 24 ∧ StateData true m 24 s f b ∧ 0 < m.params.sinkRate ∧ m.fixedDt = false ∧ m.rkOrder = 1 ∧ 0 < m.cfl ∧
    (∀ i B, LeafAt m.vertices i B → ∀ x, x < 24 → ∀ y, y < 24 → ∀ k,
      cellSize m.params.domainRadius 24 i ≤ 3 / 2 * reach m.params.softening (body b k) (cellCenter m.params.domainRadius 24 i x y)) ∧
    Blocks m.vertices m.bufferRate 24 24 br ∧ (∀ i x y, 0 ≤ br i x y) ∧ Blocks m.vertices m.initialU 24 24 init ∧
    (∀ i B, LeafAt m.vertices i B → ∀ x, x < 24 → ∀ y, y < 24 → 0 ≤ (init i x y).a) ∧
    ∀ d, maximumTimestep exShift m s = .ok d → ∀ i x y,
      8 / 5 * m.cfl + m.cfl * d / 10 * (drain m.params.sinkRate m.params.sinkRadius b.body1 (cellCenter m.params.domainRadius 24 i x y) +
        drain m.params.sinkRate m.params.sinkRadius b.body2 (cellCenter m.params.domainRadius 24 i x y) + br i x y) < 1 := by
  obtain ⟨n, m, s, b, _, h1, h2, hi, hbr, hE, hl, hrd, hr, _⟩ := start_partial exShift_total (defaults_sensible true) defaultFocus (.inl (by norm_num [defaults]))
  have hl : m.conserveLinear = true := hl
  have hrd : m.params.domainRadius = 12 := by rw [hrd]; norm_num [defaults]
  have hr : m.params.sinkRate = 1 := by rw [hr]; norm_num [defaults]
  have h1 : MeshData true m 4 24 := h1
  obtain ⟨f, h2, hi⟩ : ∃ f, StateData true m 24 s f b ∧ Blocks m.vertices m.initialU 24 24 f := ⟨_, h2, hi⟩
  obtain ⟨br, hbr, hb0, hb1⟩ : ∃ br, Blocks m.vertices m.bufferRate 24 24 br ∧ (∀ i x y, 0 ≤ br i x y) ∧ ∀ i x y, br i x y ≤ 20 := by
    refine ⟨_, hbr, fun i x y => ?_, fun i x y => ?_⟩
    · show 0 ≤ (10 : ℝ) * (1 + Real.tanh _)
      have := Real.neg_one_lt_tanh (3 * (Real.sqrt ((cellCenter (defaults).domainRadius (defaults).blockSize i x y).1 ^ 2 + (cellCenter (defaults).domainRadius (defaults).blockSize i x y).2 ^ 2) - (defaults).domainRadius))
      exact mul_nonneg (by norm_num) (by linarith)
    · show (10 : ℝ) * (1 + Real.tanh _) ≤ 20
      have := Real.tanh_lt_one (3 * (Real.sqrt ((cellCenter (defaults).domainRadius (defaults).blockSize i x y).1 ^ 2 + (cellCenter (defaults).domainRadius (defaults).blockSize i x y).2 ^ 2) - (defaults).domainRadius))
      nlinarith
  let m0 : SolverData := { m with params := { m.params with softening := 1 }, rkOrder := 1, fixedDt := false }
  have hm0 : MeshData true m0 4 24 := ⟨h1.shaped, h1.blockSize, h1.radius, h1.vertices, h1.centers, h1.areas, h1.buffer, h1.initial⟩
  have hs0 : StateData true m0 24 s f b := ⟨h2.blocks, h2.density, h2.bodies, ⟨h2.physical.mach, one_ne_zero, h2.physical.mass1, h2.physical.mass2⟩, h2.sink, h2.ramp, h2.offCenter⟩
  obtain ⟨_, _, d, hd, ed, _⟩ := timestep_partial exShift_total (m := m0) hl hm0 hs0 (fun _ _ _ _ => .inr (by norm_num))
  have hk : 0 < 1 / (100 * (1 + d)) := by positivity
  refine ⟨{ m0 with cfl := 1 / (100 * (1 + d)) }, s, f, b, br, f, hl, ?_, ?_, ?_, rfl, rfl, hk, ?_, hbr, hb0, hi, fun i B hi x hx y hy => (h2.density i B hi x hx y hy).le, ?_⟩
  · exact ⟨h1.shaped, h1.blockSize, h1.radius, h1.vertices, h1.centers, h1.areas, h1.buffer, h1.initial⟩
  · exact ⟨h2.blocks, h2.density, h2.bodies, ⟨h2.physical.mach, one_ne_zero, h2.physical.mass1, h2.physical.mass2⟩, h2.sink, h2.ramp, h2.offCenter⟩
  · show 0 < m.params.sinkRate
    rw [hr]
    norm_num
  · intro i B _ x _ y _ k
    show cellSize m.params.domainRadius 24 i ≤ 3 / 2 * reach 1 _ _
    have hreach : 1 ≤ reach 1 (body b k) (cellCenter m.params.domainRadius 24 i x y) := by
      unfold reach
      rw [Real.one_le_sqrt]
      nlinarith [sq_nonneg ((cellCenter m.params.domainRadius 24 i x y).1 - (body b k).x), sq_nonneg ((cellCenter m.params.domainRadius 24 i x y).2 - (body b k).y)]
    have hsize : cellSize m.params.domainRadius 24 i ≤ 1 := by
      unfold cellSize
      rw [hrd, div_le_one (by positivity)]
      refine le_trans ?_ (one_le_pow₀ (by norm_num : (1 : ℝ) ≤ 2))
      norm_num
    linarith
  · intro d' hd' i x y
    have hd'' : maximumTimestep exShift m0 s = .ok d' := hd'
    rw [ed] at hd''
    obtain rfl := Outcome.ok.inj hd''
    have hdr : ∀ B p, drain m.params.sinkRate m.params.sinkRadius B p ≤ 1 := by
      intro B p
      unfold drain
      rw [hr, one_mul]
      refine Real.exp_le_one_iff.2 (neg_nonpos.2 (by positivity))
    show 8 / 5 * (1 / (100 * (1 + d))) + 1 / (100 * (1 + d)) * d / 10 * (drain m.params.sinkRate m.params.sinkRadius b.body1 _ +
        drain m.params.sinkRate m.params.sinkRadius b.body2 _ + br i x y) < 1
    have e1 := hdr b.body1 (cellCenter m.params.domainRadius 24 i x y)
    have e2 := hdr b.body2 (cellCenter m.params.domainRadius 24 i x y)
    have e3 := hb1 i x y
    have e4 : 1 / (100 * (1 + d)) ≤ 1 / 100 := one_div_le_one_div_of_le (by norm_num) (by linarith)
    have e5 : 1 / (100 * (1 + d)) * d ≤ 1 / 100 := by
      rw [one_div_mul_eq_div, div_le_div_iff₀ (by positivity) (by norm_num)]
      linarith
    have e6 : 0 ≤ 1 / (100 * (1 + d)) * d := by positivity
    calc _ ≤ 8 / 5 * (1 / 100) + 1 / (100 * (1 + d)) * d / 10 * 22 := by gcongr; linarith
      _ ≤ 8 / 5 * (1 / 100) + 1 / 100 / 10 * 22 := by gcongr
      _ < 1 := by norm_num

end Verif.Binary
