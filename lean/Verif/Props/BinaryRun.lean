import Verif.Props.BinarySetup
import Verif.Props.BinarySafety
import Verif.Props.BinaryTimestep
import Verif.Props.TwoBodyDrift
import Verif.Spec.BinaryRun

/-!
# C67 for whole runs, C98: the mass of gas and bodies, C99: the motion of a live binary

The hypotheses are met by the initial state of a run with the default values: see the example at the end.
-/

namespace Verif.Binary

open Verif Verif.Nd Verif.Tree Iso2d Geometry TwoBody

variable {sh : Nat → Outcome Nat}

/-! ### A step that succeeds has a sound state -/

theorem inShape_pair {N x y : Nat} (hx : x < N) (hy : y < N) : InShape ![N, N] ![x, y] := by
  intro a
  fin_cases a
  · exact hx
  · exact hy

/-- Where the primitives were computed, the densities are not zero. -/
theorem recover_nonzero {lin : Bool} {m : SolverData} {D N : Nat} (hT : Shaped m.vertices D N) {s : Solution} {f : Index 2 → Nat → Nat → Tri}
    (hf : Blocks m.vertices (cons lin s) N N f) {p0 : Quad Tri} (h : recoverPrimitive lin m s = .ok p0) :
    ∀ i c, LeafAt m.vertices i c → ∀ x, x < N → ∀ y, y < N → (f i x y).a ≠ 0 := by
  intro i c hi x hx y hy h0
  have hN := hT.pos
  have hlt : N < 2 ^ 64 := lt_of_le_of_lt (Nat.le_mul_of_pos_left N (by omega : 0 < N + 2))
    (lt_of_le_of_lt (Nat.mul_le_mul_left _ (by omega)) (lt_trans hT.bound (by norm_num)))
  have hpos : ∀ a : Fin 2, 0 < (![N, N] : Ix 2) a := by
    intro a
    fin_cases a <;> exact hN
  have hb : ∀ a : Fin 2, (![N, N] : Ix 2) a < 2 ^ 64 := by
    intro a
    fin_cases a <;> exact hlt
  obtain ⟨B, hB⟩ := ((recoverPrimitive_shape h).trans hf.1 i).2 ⟨c, hi⟩
  unfold recoverPrimitive at h
  cases lin with
  | true =>
    rw [if_pos rfl] at h
    obtain ⟨U, hU, hl⟩ := mapM_inv h hB
    have hG := hf.2 i U hl
    have hsh : U.shape = ![N, N] := grid_shape hG
    obtain ⟨v, hv⟩ := evaluate_gets hU (by show ∀ a, 0 < U.shape a; rw [hsh]; exact hpos) (by show ∀ a, U.shape a < 2 ^ 64; rw [hsh]; exact hb) ![x, y]
      (by show InShape U.shape _; rw [hsh]; exact inShape_pair hx hy)
    have hv : (U.get ![x, y]).bind _ = _ := hv
    rw [hG.2.2 x hx y hy, Outcome.bind_ok, recoverCell, if_pos h0] at hv
    cases hv
  | false =>
    rw [if_neg (by decide)] at h
    obtain ⟨r, hr, h⟩ := Outcome.bind_eq_ok.1 h
    obtain ⟨Q, hQ, hl⟩ := mapM_inv h hB
    have hl := (pair_inv hr).2.2 i Q hl
    have hG := hf.2 i Q.1 hl.1
    have hsh : Q.1.shape = ![N, N] := grid_shape hG
    obtain ⟨C, hC, hE⟩ := Outcome.bind_eq_ok.1 hQ
    unfold binaryOpO binaryOp at hC
    split at hC
    · cases hC
    · rw [Outcome.map_ok] at hC
      cases hC
      obtain ⟨v, hv⟩ := evaluate_gets hE (by show ∀ a, 0 < Q.1.shape a; rw [hsh]; exact hpos)
        (by show ∀ a, Q.1.shape a < 2 ^ 64; rw [hsh]; exact hb) ![x, y]
        (by show InShape Q.1.shape _; rw [hsh]; exact inShape_pair hx hy)
      obtain ⟨w, hw, hv⟩ := Outcome.bind_eq_ok.1 hv
      obtain ⟨u, hu, hw⟩ := Outcome.bind_eq_ok.1 hw
      obtain ⟨X, _, hw⟩ := Outcome.bind_eq_ok.1 hw
      cases hw
      rw [hG.2.2 x hx y hy] at hu
      cases hu
      rw [recoverCell, if_pos h0] at hv
      cases hv

theorem twoBody_mass {p : FullElements} {t : ℝ} {b : State} (h : fullTwoBodyState p t = .ok b) (hq : 0 < p.elements.massRatio) :
    b.body1.mass = p.elements.totalMass / (1 + p.elements.massRatio) ∧
    b.body2.mass = p.elements.totalMass * p.elements.massRatio / (1 + p.elements.massRatio) := by
  have hR : ∀ E s, makeResult p.elements E = .ok s → s.body1.mass = p.elements.totalMass / (1 + p.elements.massRatio) ∧
      s.body2.mass = p.elements.totalMass * p.elements.massRatio / (1 + p.elements.massRatio) := by
    intro E s h
    unfold makeResult at h
    simp only at h
    split at h
    · cases h
    · cases h
      have : 1 + p.elements.massRatio ≠ 0 := by linarith
      constructor
      · show p.elements.totalMass * (1 - _) = _
        field_simp
        ring
      · show p.elements.totalMass * (_ / _) = _
        ring
  unfold fullTwoBodyState at h
  obtain ⟨t', _, h⟩ := Outcome.bind_eq_ok.1 h
  obtain ⟨s, hs, rfl⟩ := Outcome.map_eq_ok.1 h
  show s.body1.mass = _ ∧ s.body2.mass = _
  unfold twoBodyState at hs
  simp only at hs
  split at hs
  · cases hs
  split at hs
  · obtain ⟨E, _, hs⟩ := Outcome.bind_eq_ok.1 hs
    exact hR E s hs
  · exact hR _ s hs

/-- From a state of a run, an update that succeeds has all it needs. -/
theorem advance_state {m : SolverData} {D N : Nat} (hm : MeshData m.conserveLinear m D N) (hS : Sound m N) {s s1 : Solution} (hR : Running m N s)
    {fuel : Nat} {z : Fin 9 → Bool} {dt : ℝ} {safe : Bool} (h : advance sh fuel z m s dt safe = .ok s1) :
    ∃ f b, StateData m.conserveLinear m N s f b := by
  obtain ⟨f, hf, hpos⟩ := hR.gas
  obtain ⟨u1, t, b, hC, _⟩ := advance_inv h
  unfold stepCore at hC
  obtain ⟨r, hr, _⟩ := Outcome.bind_eq_ok.1 hC
  unfold stepFluxes at hr
  obtain ⟨p0, hp, hr⟩ := Outcome.bind_eq_ok.1 hr
  iterate 8 obtain ⟨_, _, hr⟩ := Outcome.bind_eq_ok.1 hr
  obtain ⟨b', hb, hr⟩ := Outcome.bind_eq_ok.1 hr
  have hq := hR.ratio
  have hM := hR.mass
  obtain ⟨h1, h2⟩ := twoBody_mass hb hq
  refine ⟨f, b', hf, fun i c hi x hx y hy => ?_, hb, ⟨hS.mach, hS.softening, ?_, ?_⟩, hS.sink, hS.ramp, hS.offCenter⟩
  · exact lt_of_le_of_ne (hpos i c hi x hx y hy) (Ne.symm (recover_nonzero hm.shaped hf hp i c hi x hx y hy))
  · rw [h1]
    exact div_pos hM (by linarith)
  · rw [h2]
    exact div_pos (mul_pos hM hq) (by linarith)

/-! ### Masses of the bodies -/

theorem elements_mass {s : State} {t : ℝ} {E : FullElements} (h : computeOrbitalElements s t = .ok E) :
    E.elements.totalMass = s.body1.mass + s.body2.mass ∧ E.elements.massRatio = s.body2.mass / s.body1.mass := by
  unfold computeOrbitalElements at h
  simp only at h
  split at h
  · cases h
  split at h
  · cases h
  · unfold elementsOf at h
    rcases ite_eq_iff.1 h with ⟨_, h⟩ | ⟨_, h⟩
    · cases h
    · have h := Outcome.ok.inj h
      rw [← h]
      exact ⟨rfl, rfl⟩

theorem diff_mass {a b D : FullElements} (h : diff a b = .ok D) : D.elements.totalMass = b.elements.totalMass - a.elements.totalMass ∧
    D.elements.massRatio = b.elements.massRatio - a.elements.massRatio := by
  unfold diff at h
  obtain ⟨P, _, rfl⟩ := Outcome.map_eq_ok.1 h
  exact ⟨rfl, rfl⟩

theorem bodyAcc_mass {m : SolverData} {B B' : PointMass} {t : BodyTotals} (h : bodyAcc m B t = .ok B') : B'.mass = B.mass + t.mass := by
  unfold bodyAcc at h
  split at h
  · cases h
  · cases h
    rfl

theorem bodyGrv_mass {B B' : PointMass} {t : BodyTotals} (h : bodyGrv B t = .ok B') : B'.mass = B.mass := by
  unfold bodyGrv at h
  split at h
  · cases h
  · cases h
    rfl

/-- What an update does to the masses in the elements of the orbit. -/
theorem advance_orbit {fuel : Nat} {z : Fin 9 → Bool} {m : SolverData} {s s1 : Solution} {dt : ℝ} {safe : Bool}
    (h : advance sh fuel z m s dt safe = .ok s1) :
    ∃ u1 t b, stepCore sh fuel z m.conserveLinear m s dt safe = .ok (u1, t, b) ∧
      s1.orbitAcc.elements.totalMass = s.orbitAcc.elements.totalMass + (b.body1.mass + (t.on 0).mass + (b.body2.mass + (t.on 1).mass) - s.orbit.elements.totalMass) ∧
      s1.orbitGrav.elements.totalMass = s.orbitGrav.elements.totalMass + (b.body1.mass + b.body2.mass - s.orbit.elements.totalMass) ∧
      s1.orbit.elements.totalMass = s.orbit.elements.totalMass + (b.body1.mass + (t.on 0).mass + (b.body2.mass + (t.on 1).mass) - s.orbit.elements.totalMass +
        (b.body1.mass + b.body2.mass - s.orbit.elements.totalMass)) * (open Classical in if s.time > m.beginLive then 1 else 0) ∧
      s1.orbit.elements.massRatio = s.orbit.elements.massRatio + ((b.body2.mass + (t.on 1).mass) / (b.body1.mass + (t.on 0).mass) - s.orbit.elements.massRatio +
        (b.body2.mass / b.body1.mass - s.orbit.elements.massRatio)) * (open Classical in if s.time > m.beginLive then 1 else 0) := by
  unfold advance advanceMode at h
  obtain ⟨⟨u1, t, b⟩, e1, h⟩ := Outcome.bind_eq_ok.1 h
  obtain ⟨E, hE, h⟩ := Outcome.bind_eq_ok.1 h
  obtain ⟨d1, hd1, h⟩ := Outcome.bind_eq_ok.1 h
  obtain ⟨d2, hd2, h⟩ := Outcome.bind_eq_ok.1 h
  have he := validate_eq h
  unfold stepOrbits at hE
  obtain ⟨a1, ha1, hE⟩ := Outcome.bind_eq_ok.1 hE
  obtain ⟨a2, ha2, hE⟩ := Outcome.bind_eq_ok.1 hE
  obtain ⟨g1, hg1, hE⟩ := Outcome.bind_eq_ok.1 hE
  obtain ⟨g2, hg2, hE⟩ := Outcome.bind_eq_ok.1 hE
  obtain ⟨A, hA, hE⟩ := Outcome.bind_eq_ok.1 hE
  obtain ⟨G, hG, hE⟩ := Outcome.bind_eq_ok.1 hE
  cases hE
  obtain ⟨k1, k2⟩ := elements_mass hA
  obtain ⟨k3, k4⟩ := elements_mass hG
  obtain ⟨k5, k6⟩ := diff_mass hd1
  obtain ⟨k7, k8⟩ := diff_mass hd2
  simp only [bodyAcc_mass ha1, bodyAcc_mass ha2] at k1 k2
  simp only [bodyGrv_mass hg1, bodyGrv_mass hg2] at k3 k4
  simp only [k1] at k5
  simp only [k2] at k6
  simp only [k3] at k7
  simp only [k4] at k8
  refine ⟨u1, t, b, e1, ?_, ?_, ?_, ?_⟩
  · rw [he]
    show s.orbitAcc.elements.totalMass + d1.elements.totalMass = _
    rw [k5]
  · rw [he]
    show s.orbitGrav.elements.totalMass + d2.elements.totalMass = _
    rw [k7]
  · rw [he]
    show s.orbit.elements.totalMass + (d1.elements.totalMass + d2.elements.totalMass + 0) * _ = _
    rw [k5, k7, add_zero]
  · rw [he]
    show s.orbit.elements.massRatio + (d1.elements.massRatio + d2.elements.massRatio + 0) * _ = _
    rw [k6, k8, add_zero]

/-- An update leads from a state of a run to a state of a run.  The mass of the binary in the elements of the orbit grows by what the bodies accrete, once
the orbit follows the gas. -/
theorem advance_running (hs : TotalShift sh) {m : SolverData} {D N : Nat} (hm : MeshData m.conserveLinear m D N) (hS : Sound m N) {s s1 : Solution}
    (hR : Running m N s) {fuel : Nat} {z : Fin 9 → Bool} {dt : ℝ} (hdt : 0 ≤ dt) {safe : Bool} (h : advance sh (fuel + 1) z m s dt safe = .ok s1) :
    Running m N s1 ∧ (∀ k, s.massAccreted k ≤ s1.massAccreted k) ∧
      s1.orbitAcc.elements.totalMass - s.orbitAcc.elements.totalMass =
        (s1.massAccreted 0 - s.massAccreted 0) + (s1.massAccreted 1 - s.massAccreted 1) ∧
      s1.orbitGrav.elements.totalMass = s.orbitGrav.elements.totalMass ∧
      s1.orbit.elements.totalMass - s.orbit.elements.totalMass =
        (open Classical in if s.time > m.beginLive then (s1.massAccreted 0 - s.massAccreted 0) + (s1.massAccreted 1 - s.massAccreted 1) else 0) := by
  obtain ⟨f, b, hst⟩ := advance_state hm hS hR h
  obtain ⟨M0, M1, gx, gy, _, _, _, hacc, _⟩ := mass_budget_partial hs hm hst hdt hS.sinkRate fuel z safe s1 h
  obtain ⟨u1, t, b1, hC, _, _, hma, _⟩ := advance_inv h
  obtain ⟨u1', t', b', hC', o1, o2, o3, o4⟩ := advance_orbit h
  rw [hC] at hC'
  cases hC'
  obtain ⟨u1', t', hC', _⟩ := step_records_partial hs hm hst hdt hS.sinkRate fuel z safe
  rw [hC] at hC'
  cases hC'
  obtain ⟨k1, k2⟩ := twoBody_mass hst.bodies hR.ratio
  have hM := hR.mass
  have hq := hR.ratio
  have hq1 : 1 + s.orbit.elements.massRatio ≠ 0 := by linarith
  have e1 : b.body1.mass + b.body2.mass = s.orbit.elements.totalMass := by
    rw [k1, k2]
    field_simp
  have p1 := hst.physical.mass1
  have p2 := hst.physical.mass2
  have e2 : b.body2.mass / b.body1.mass = s.orbit.elements.massRatio := by
    rw [k1, k2]
    field_simp
  have a0 := hacc 0
  have a1 := hacc 1
  rw [hma] at a0 a1
  have t0 : 0 ≤ (t.on 0).mass := by linarith
  have t1 : 0 ≤ (t.on 1).mass := by linarith
  refine ⟨⟨advance_nonneg hs hm.shaped hst.blocks h, ?_, ?_⟩, hacc, ?_, ?_, ?_⟩
  · rw [o3]
    split
    · linarith
    · linarith
  · rw [o4]
    split
    · rw [e2]
      have := div_pos (show 0 < b.body2.mass + (t.on 1).mass by linarith) (show 0 < b.body1.mass + (t.on 0).mass by linarith)
      linarith
    · linarith
  · rw [o1, hma, hma]
    linarith
  · rw [o2]
    linarith
  · rw [o3, hma, hma]
    split
    · linarith
    · linarith

/-! ### Budgets of updates and steps -/

/-- The mass of conserved quantities. -/
noncomputable def massOf (m : SolverData) (N : Nat) (f : Index 2 → Nat → Nat → Tri) : ℝ :=
  cellSum m.vertices N fun i x y => (f i x y).a * cellSize m.params.domainRadius N i ^ 2

/-- The angular momentum of conserved quantities. -/
noncomputable def angmomOf (m : SolverData) (N : Nat) (f : Index 2 → Nat → Nat → Tri) : ℝ :=
  cellSum m.vertices N fun i x y => lz m.conserveLinear (f i x y) (cellCenter m.params.domainRadius N i x y) * cellSize m.params.domainRadius N i ^ 2

theorem massOf_mean (m : SolverData) (N : Nat) (f g : Index 2 → Nat → Nat → Tri) :
    massOf m N (fun i x y => ((f i x y).mul ((1 / 2 : ℚ) : ℝ)).add ((g i x y).mul ((1 - 1 / 2 : ℚ) : ℝ))) = (massOf m N f + massOf m N g) / 2 := by
  unfold massOf
  rw [← cellSum_add, div_eq_inv_mul (cellSum m.vertices N _), ← cellSum_mul]
  refine cellSum_congr fun i c hi x _ y _ => ?_
  show ((f i x y).a * ((1 / 2 : ℚ) : ℝ) + (g i x y).a * ((1 - 1 / 2 : ℚ) : ℝ)) * _ = _
  push_cast
  ring

theorem angmomOf_mean (m : SolverData) (N : Nat) (f g : Index 2 → Nat → Nat → Tri) :
    angmomOf m N (fun i x y => ((f i x y).mul ((1 / 2 : ℚ) : ℝ)).add ((g i x y).mul ((1 - 1 / 2 : ℚ) : ℝ))) = (angmomOf m N f + angmomOf m N g) / 2 := by
  unfold angmomOf
  rw [← cellSum_add, div_eq_inv_mul (cellSum m.vertices N _), ← cellSum_mul]
  refine cellSum_congr fun i c hi x _ y _ => ?_
  have e : ∀ (u v : Tri) p, lz m.conserveLinear ((u.mul ((1 / 2 : ℚ) : ℝ)).add (v.mul ((1 - 1 / 2 : ℚ) : ℝ))) p =
      (lz m.conserveLinear u p + lz m.conserveLinear v p) / 2 := by
    intro u v p
    unfold lz Tri.add Tri.mul
    push_cast
    split <;> ring
  beta_reduce
  rw [e]
  ring

/-- The budget of an update. -/
theorem stage_budget (hs : TotalShift sh) {m : SolverData} {D N : Nat} (hm : MeshData m.conserveLinear m D N) (hS : Sound m N) {s s1 : Solution}
    (hR : Running m N s) {fuel : Nat} {z : Fin 9 → Bool} {dt : ℝ} (hdt : 0 ≤ dt) {safe : Bool} (h : advance sh (fuel + 1) z m s dt safe = .ok s1)
    {f g : Index 2 → Nat → Nat → Tri} (hf : Blocks m.vertices (cons m.conserveLinear s) N N f) (hg : Blocks m.vertices (cons m.conserveLinear s1) N N g) :
    (∃ W, StageLoss sh (fuel + 1) z m N s dt safe W ∧
      massOf m N g + accreted s1 + s1.massEjected + W = massOf m N f + accreted s + s.massEjected) ∧
    (m.conserveLinear = false → angmomOf m N g + angmomGiven s1 = angmomOf m N f + angmomGiven s) := by
  obtain ⟨f', b, hst⟩ := advance_state hm hS hR h
  constructor
  · obtain ⟨M0, M1, gx, gy, e0, e1, hF, _, hB⟩ := mass_budget_partial hs hm hst hdt hS.sinkRate fuel z safe s1 h
    rw [diskMass_ok hm hf] at e0
    rw [diskMass_ok hm hg] at e1
    cases e0
    cases e1
    refine ⟨_, ⟨gx, gy, f', hF, hst.blocks, rfl⟩, ?_⟩
    unfold massOf accreted
    linarith
  · intro hl
    obtain ⟨L0, L1, e0, e1, hB⟩ := angmom_budget_partial hs hm hst hdt hS.sinkRate hl fuel z safe s1 h
    rw [diskAngmom_ok hm hf] at e0
    rw [diskAngmom_ok hm hg] at e1
    cases e0
    cases e1
    unfold angmomOf angmomGiven
    linarith

/-- The fields of the mean of two solutions. -/
theorem mean_fields {s s2 h0 h2 s' : Solution} (e0 : s.scale (1 / 2) = .ok h0) (e2 : s2.scale (1 - 1 / 2) = .ok h2) (e : h0.add h2 = .ok s') :
    s'.time = (s.time + s2.time) / 2 ∧ (∀ k, s'.massAccreted k = (s.massAccreted k + s2.massAccreted k) / 2) ∧
      s'.massEjected = (s.massEjected + s2.massEjected) / 2 ∧ angmomGiven s' = (angmomGiven s + angmomGiven s2) / 2 ∧
      s'.orbitAcc.elements.totalMass = (s.orbitAcc.elements.totalMass + s2.orbitAcc.elements.totalMass) / 2 ∧
      s'.orbitGrav.elements.totalMass = (s.orbitGrav.elements.totalMass + s2.orbitGrav.elements.totalMass) / 2 ∧
      s'.orbit.elements.totalMass = (s.orbit.elements.totalMass + s2.orbit.elements.totalMass) / 2 ∧
      s'.orbit.elements.massRatio = (s.orbit.elements.massRatio + s2.orbit.elements.massRatio) / 2 := by
  unfold Solution.scale at e0 e2
  unfold Solution.add at e
  obtain ⟨_, _, e0⟩ := Outcome.bind_eq_ok.1 e0
  obtain ⟨_, _, e0⟩ := Outcome.bind_eq_ok.1 e0
  cases e0
  obtain ⟨_, _, e2⟩ := Outcome.bind_eq_ok.1 e2
  obtain ⟨_, _, e2⟩ := Outcome.bind_eq_ok.1 e2
  cases e2
  obtain ⟨_, _, e⟩ := Outcome.bind_eq_ok.1 e
  obtain ⟨_, _, e⟩ := Outcome.bind_eq_ok.1 e
  cases e
  unfold angmomGiven FullElements.add FullElements.scale
  refine ⟨?_, fun k => ?_, ?_, ?_, ?_, ?_, ?_, ?_⟩ <;> dsimp only <;> push_cast <;> ring

/-- What an attempt at a step does. -/
theorem attempt_budget (hs : TotalShift sh) {m : SolverData} {D N : Nat} (hm : MeshData m.conserveLinear m D N) (hS : Sound m N) {s s' : Solution}
    (hR : Running m N s) {fuel : Nat} {z : Fin 9 → Bool} {dt : ℝ} (hdt : 0 ≤ dt) {safe : Bool} (h : attempt sh (fuel + 1) z m s dt safe = .ok s')
    {f : Index 2 → Nat → Nat → Tri} (hf : Blocks m.vertices (cons m.conserveLinear s) N N f) :
    Running m N s' ∧ s'.time = s.time + dt ∧ (∀ k, s.massAccreted k ≤ s'.massAccreted k) ∧
      s'.orbitAcc.elements.totalMass - s.orbitAcc.elements.totalMass = accreted s' - accreted s ∧
      s'.orbitGrav.elements.totalMass = s.orbitGrav.elements.totalMass ∧
      (s.time > m.beginLive → s'.orbit.elements.totalMass - s.orbit.elements.totalMass = accreted s' - accreted s) ∧
      (s'.time ≤ m.beginLive → s'.orbit.elements.totalMass = s.orbit.elements.totalMass) ∧
      ∃ g, Blocks m.vertices (cons m.conserveLinear s') N N g ∧
        (∃ W, StepLoss sh (fuel + 1) z m N s s' W ∧ massOf m N g + accreted s' + s'.massEjected + W = massOf m N f + accreted s + s.massEjected) ∧
        (m.conserveLinear = false → angmomOf m N g + angmomGiven s' = angmomOf m N f + angmomGiven s) := by
  unfold attempt at h
  split at h
  · rename_i hk
    obtain ⟨h1, h2, h3, h4, h5⟩ := advance_running hs hm hS hR hdt h
    obtain ⟨g, hg, _⟩ := h1.gas
    obtain ⟨⟨W, hW, e⟩, hL⟩ := stage_budget hs hm hS hR hdt h hf hg
    obtain ⟨ht, _⟩ := advance_clock h
    refine ⟨h1, ht, h2, ?_, h4, fun hl => ?_, fun hl => ?_, g, hg, ⟨W, ⟨dt, safe, hdt, ht, .inl ⟨hk, hW⟩⟩, e⟩, hL⟩
    · unfold accreted
      linarith
    · rw [if_pos hl] at h5
      unfold accreted
      linarith
    · rw [if_neg (by rw [ht] at hl; linarith)] at h5
      linarith
  split at h
  · rename_i hk
    obtain ⟨a, ha, h⟩ := Outcome.bind_eq_ok.1 h
    obtain ⟨b, hb, h⟩ := Outcome.bind_eq_ok.1 h
    obtain ⟨h0, eh0, h⟩ := Outcome.bind_eq_ok.1 h
    obtain ⟨h2, eh2, h⟩ := Outcome.bind_eq_ok.1 h
    obtain ⟨a1, a2, a3, a4, a5⟩ := advance_running hs hm hS hR hdt ha
    obtain ⟨b1, b2, b3, b4, b5⟩ := advance_running hs hm hS a1 hdt hb
    obtain ⟨ga, hga, _⟩ := a1.gas
    obtain ⟨gb, hgb, hposb⟩ := b1.gas
    obtain ⟨⟨W0, hW0, e0⟩, hL0⟩ := stage_budget hs hm hS hR hdt ha hf hga
    obtain ⟨⟨W1, hW1, e1⟩, hL1⟩ := stage_budget hs hm hS a1 hdt hb hga hgb
    obtain ⟨ta, _⟩ := advance_clock ha
    obtain ⟨tb, _⟩ := advance_clock hb
    obtain ⟨m1, m2, m3, m4, m5, m6, m7, m8⟩ := mean_fields eh0 eh2 h
    obtain ⟨c0, _⟩ := scale_cons eh0 m.conserveLinear
    obtain ⟨c2, _⟩ := scale_cons eh2 m.conserveLinear
    obtain ⟨c1, _⟩ := add_cons h m.conserveLinear
    have hg := addTrees_inv hm.shaped (scaleTree_inv hm.shaped hf c0) (scaleTree_inv hm.shaped hgb c2) c1
    have ht : s'.time = s.time + dt := by rw [m1, tb, ta]; ring
    have hacc : accreted s' = (accreted s + accreted b) / 2 := by unfold accreted; rw [m2, m2]; ring
    refine ⟨⟨?_, ?_, ?_⟩, ht, fun k => ?_, ?_, ?_, fun hl => ?_, fun hl => ?_, _, hg, ⟨(W0 + W1) / 2, ⟨dt, safe, hdt, ht, .inr ⟨hk, a, W0, W1, ha, hW0, hW1, rfl⟩⟩, ?_⟩, fun hl => ?_⟩
    · obtain ⟨f', hf', hpos⟩ := hR.gas
      refine ⟨_, addTrees_inv hm.shaped (scaleTree_inv hm.shaped hf' c0) (scaleTree_inv hm.shaped hgb c2) c1, fun i c hi x hx y hy => ?_⟩
      have h1 := hpos i c hi x hx y hy
      have h2 := hposb i c hi x hx y hy
      show 0 ≤ (f' i x y).a * ((1 / 2 : ℚ) : ℝ) + (gb i x y).a * ((1 - 1 / 2 : ℚ) : ℝ)
      push_cast
      linarith
    · rw [m7]
      have := hR.mass
      have := b1.mass
      linarith
    · rw [m8]
      have := hR.ratio
      have := b1.ratio
      linarith
    · rw [m2]
      have := a2 k
      have := b2 k
      linarith
    · rw [m5, hacc]
      unfold accreted
      linarith
    · rw [m6, b4, a4]
      ring
    · rw [if_pos hl] at a5
      rw [if_pos (show a.time > m.beginLive by rw [ta]; linarith)] at b5
      rw [m7, hacc]
      unfold accreted
      linarith
    · rw [ht] at hl
      rw [if_neg (by linarith)] at a5
      rw [if_neg (by rw [ta]; linarith)] at b5
      rw [m7]
      linarith
    · rw [massOf_mean, hacc, m3]
      linarith
    · rw [angmomOf_mean, m4]
      have := hL0 hl
      have := hL1 hl
      linarith
  · cases h

/-! ### The time step -/

theorem readAll_mem {R : Nat} {α : Type} {A : Arr R α} {P : α → Prop} (hP : ∀ i v, A.get i = .ok v → P v) (l : List (Ix R)) {L : List α}
    (h : readAll A l = .ok L) : ∀ v ∈ L, P v := by
  induction l generalizing L with
  | nil =>
    cases h
    intro v hv
    cases hv
  | cons i l ih =>
    unfold readAll at h
    obtain ⟨v, hv, h⟩ := Outcome.bind_eq_ok.1 h
    obtain ⟨vs, hvs, h⟩ := Outcome.bind_eq_ok.1 h
    cases h
    intro w hw
    rcases List.mem_cons.1 hw with rfl | hw
    · exact hP i _ hv
    · exact ih hvs w hw

theorem minBy_mem {R : Nat} {α : Type} {A : Arr (R + 1) α} {P : α → Prop} (hP : ∀ i v, A.get i = .ok v → P v) {lt : α → α → Bool} {d v : α} (hd : P d)
    (h : minBy lt d A = .ok v) : P v := by
  unfold minBy at h
  obtain ⟨L, hL, rfl⟩ := Outcome.map_eq_ok.1 h
  unfold elements at hL
  obtain ⟨l, _, hL⟩ := Outcome.bind_eq_ok.1 hL
  have hmem := readAll_mem hP l hL
  have key : ∀ (L : List α) (r : Option α), (∀ v ∈ L, P v) → P (r.getD d) → P ((L.foldl (fun r x => match r with
      | none => some x
      | some m => if lt x m then some x else some m) r).getD d) := by
    intro L
    induction L with
    | nil =>
      intro r _ hr
      exact hr
    | cons x L ih =>
      intro r hL hr
      refine ih _ (fun v hv => hL v (List.mem_cons_of_mem _ hv)) ?_
      cases r with
      | none => exact hL x List.mem_cons_self
      | some y =>
        dsimp only
        split
        · exact hL x List.mem_cons_self
        · exact hr
  exact key L none hmem hd

theorem blockTimestep_nonneg {m : SolverData} (hr : 0 < m.params.domainRadius) {b : State} {p0 : Quad Tri} {i : Index 2} {v : ℝ}
    (h : blockTimestep sh m b p0 i = .ok v) : 0 ≤ v := by
  unfold blockTimestep at h
  obtain ⟨xc, _, h⟩ := Outcome.bind_eq_ok.1 h
  obtain ⟨pc, _, h⟩ := Outcome.bind_eq_ok.1 h
  obtain ⟨d, hd, h⟩ := Outcome.bind_eq_ok.1 h
  obtain ⟨W, hW, h⟩ := Outcome.bind_eq_ok.1 h
  obtain ⟨w, hw, h⟩ := Outcome.bind_eq_ok.1 h
  split at h
  · cases h
  · cases h
    refine div_nonneg ?_ ?_
    · unfold blockSpacing at hd
      obtain ⟨k, _, hd⟩ := Outcome.bind_eq_ok.1 hd
      split at hd
      · cases hd
      · cases hd
        positivity
    · refine minBy_mem (P := fun v => 0 ≤ v) (fun j v hv => ?_) le_rfl hw
      obtain ⟨C, _, rfl⟩ := Outcome.map_eq_ok.1 hW
      obtain ⟨q, _, hv⟩ := Outcome.bind_eq_ok.1 hv
      obtain ⟨c, _, hv⟩ := Outcome.bind_eq_ok.1 hv
      split at hv
      · cases hv
      · rename_i hc
        cases hv
        rw [maxWavespeed_eq _ (not_lt.1 hc)]
        have := abs_nonneg q.1.b
        have := le_max_left |q.1.b| |q.1.c|
        have := Real.sqrt_nonneg c
        linarith

theorem maximumTimestep_nonneg {m : SolverData} (hr : 0 < m.params.domainRadius) {s : Solution} {d : ℝ}
    (h : maximumTimestep sh m s = .ok d) : 0 ≤ d := by
  unfold maximumTimestep at h
  obtain ⟨p0, _, h⟩ := Outcome.bind_eq_ok.1 h
  obtain ⟨b, _, h⟩ := Outcome.bind_eq_ok.1 h
  obtain ⟨t, ht, rfl⟩ := Outcome.map_eq_ok.1 h
  obtain ⟨g1, _, _, _⟩ := tree_min_max t
  rw [sink_eq_leaves] at g1
  obtain ⟨i, hi⟩ := mem_leaves_leafAt g1
  obtain ⟨j, hj, _⟩ := mapM_inv ht hi
  have := blockTimestep_nonneg hr hj
  convert this

/-! ### Steps and runs -/

theorem next_budget (hs : TotalShift sh) {m : SolverData} {D N : Nat} (hm : MeshData m.conserveLinear m D N) (hS : Sound m N) {s s' : Solution}
    (hR : Running m N s) {fuel : Nat} {z : Fin 9 → Bool} (h : nextSolution sh (fuel + 1) z m s = .ok s')
    {f : Index 2 → Nat → Nat → Tri} (hf : Blocks m.vertices (cons m.conserveLinear s) N N f) :
    Running m N s' ∧ s.time ≤ s'.time ∧ (∀ k, s.massAccreted k ≤ s'.massAccreted k) ∧
      s'.orbitAcc.elements.totalMass - s.orbitAcc.elements.totalMass = accreted s' - accreted s ∧
      s'.orbitGrav.elements.totalMass = s.orbitGrav.elements.totalMass ∧
      (s.time > m.beginLive → s'.orbit.elements.totalMass - s.orbit.elements.totalMass = accreted s' - accreted s) ∧
      (s'.time ≤ m.beginLive → s'.orbit.elements.totalMass = s.orbit.elements.totalMass) ∧
      ∃ g, Blocks m.vertices (cons m.conserveLinear s') N N g ∧
        (∃ W, StepLoss sh (fuel + 1) z m N s s' W ∧ massOf m N g + accreted s' + s'.massEjected + W = massOf m N f + accreted s + s.massEjected) ∧
        (m.conserveLinear = false → angmomOf m N g + angmomGiven s' = angmomOf m N f + angmomGiven s) := by
  obtain ⟨_, _, dt, hd1, hd2, h⟩ := (step_density_partial hs hm.shaped hR.gas (fuel + 1) z).1 s' h
  have hdt : 0 ≤ dt := by
    cases hfix : m.fixedDt with
    | true =>
      rw [hd1 hfix]
      exact hS.step
    | false =>
      obtain ⟨d, hd, rfl⟩ := hd2 hfix
      exact mul_nonneg hS.cfl (maximumTimestep_nonneg hm.radius hd)
  rcases h with ⟨h, _⟩ | ⟨_, h, _⟩
  · obtain ⟨r, ht, h⟩ := attempt_budget hs hm hS hR hdt h hf
    exact ⟨r, by rw [ht]; linarith, h⟩
  · obtain ⟨r, ht, h⟩ := attempt_budget hs hm hS hR (by linarith : 0 ≤ dt / 10) h hf
    exact ⟨r, by rw [ht]; linarith, h⟩

/-- **C67**, **C98** for a run of any number of steps, of any lengths, some of them made in safe mode after a failure.  The mass of the disk, as the program
reports it, changes by what the bodies accreted, what the buffer took, and what left through the edges less what the floor added; in the mode that conserves
angular momentum the angular momentum of the disk changes by what is recorded.  The bodies never lose mass; and the orbit perturbed by accretion
has gained just the accreted mass, the orbit perturbed by gravity none.  The gas stays without negative densities. -/
theorem run_budget_partial (hs : TotalShift sh) {m : SolverData} {D N : Nat} (hm : MeshData m.conserveLinear m D N) (hS : Sound m N)
    (fuel : Nat) (z : Fin 9 → Bool) (s : Nat → Solution) (hR : Running m N (s 0)) (n : Nat)
    (h : ∀ k, k < n → nextSolution sh (fuel + 1) z m (s k) = .ok (s (k + 1))) :
    ∃ (M L W : Nat → ℝ), (∀ k, k ≤ n → diskMass m (s k) = .ok (M k) ∧ diskAngmom m (s k) = .ok (L k) ∧ Running m N (s k)) ∧
      (∀ k, k < n → StepLoss sh (fuel + 1) z m N (s k) (s (k + 1)) (W k)) ∧
      (∀ k, k ≤ n → M k + accreted (s k) + (s k).massEjected + ∑ j ∈ Finset.range k, W j = M 0 + accreted (s 0) + (s 0).massEjected ∧
        (m.conserveLinear = false → L k + angmomGiven (s k) = L 0 + angmomGiven (s 0)) ∧
        (∀ b, (s 0).massAccreted b ≤ (s k).massAccreted b) ∧
        (s k).orbitAcc.elements.totalMass - (s 0).orbitAcc.elements.totalMass = accreted (s k) - accreted (s 0) ∧
        (s k).orbitGrav.elements.totalMass = (s 0).orbitGrav.elements.totalMass) := by
  have hrun : ∀ k, k ≤ n → Running m N (s k) := by
    intro k
    induction k with
    | zero => exact fun _ => hR
    | succ k ih =>
      intro hk
      obtain ⟨f, hf, _⟩ := (ih (by omega)).gas
      exact (next_budget hs hm hS (ih (by omega)) (h k (by omega)) hf).1
  have hblocks : ∀ k, ∃ f, k ≤ n → Blocks m.vertices (cons m.conserveLinear (s k)) N N f := by
    intro k
    by_cases hk : k ≤ n
    · obtain ⟨f, hf, _⟩ := (hrun k hk).gas
      exact ⟨f, fun _ => hf⟩
    · exact ⟨fun _ _ _ => 0, fun h => absurd h hk⟩
  choose f hf using hblocks
  have hstep : ∀ k, ∃ W, k < n → StepLoss sh (fuel + 1) z m N (s k) (s (k + 1)) W ∧
      massOf m N (f (k + 1)) + accreted (s (k + 1)) + (s (k + 1)).massEjected + W = massOf m N (f k) + accreted (s k) + (s k).massEjected ∧
      (m.conserveLinear = false → angmomOf m N (f (k + 1)) + angmomGiven (s (k + 1)) = angmomOf m N (f k) + angmomGiven (s k)) := by
    intro k
    by_cases hk : k < n
    · obtain ⟨_, _, _, _, _, _, _, g, hg, ⟨W, hW, e⟩, e'⟩ := next_budget hs hm hS (hrun k hk.le) (h k hk) (hf k hk.le)
      have e1 : massOf m N g = massOf m N (f (k + 1)) := Outcome.ok.inj ((diskMass_ok hm hg).symm.trans (diskMass_ok hm (hf (k + 1) hk)))
      refine ⟨W, fun _ => ⟨hW, by rw [← e1]; exact e, fun hl => ?_⟩⟩
      have e2 : angmomOf m N g = angmomOf m N (f (k + 1)) := Outcome.ok.inj ((diskAngmom_ok hm hg).symm.trans (diskAngmom_ok hm (hf (k + 1) hk)))
      rw [← e2]
      exact e' hl
    · exact ⟨0, fun h => absurd h hk⟩
  choose W hW using hstep
  refine ⟨fun k => massOf m N (f k), fun k => angmomOf m N (f k), W, fun k hk => ⟨diskMass_ok hm (hf k hk), diskAngmom_ok hm (hf k hk), hrun k hk⟩,
    fun k hk => (hW k hk).1, fun k => ?_⟩
  induction k with
  | zero =>
    intro _
    refine ⟨?_, fun _ => rfl, fun _ => le_rfl, ?_, rfl⟩
    · rw [Finset.sum_range_zero, add_zero]
    · rw [sub_self, sub_self]
  | succ k ih =>
    intro hk
    obtain ⟨i1, i2, i3, i4, i5⟩ := ih (by omega)
    obtain ⟨_, w2, w3⟩ := hW k (by omega)
    obtain ⟨_, _, q3, q4, q5, _⟩ := next_budget hs hm hS (hrun k (by omega)) (h k (by omega)) (hf k (by omega))
    refine ⟨?_, fun hl => ?_, fun b => (i3 b).trans (q3 b), by linarith, q5.trans i5⟩
    · rw [Finset.sum_range_succ]
      beta_reduce at i1 ⊢
      linarith
    · exact (w3 hl).trans (i2 hl)

/-- **C98**: in a run with a live binary the mass of the gas and of the bodies together changes by what the buffer took and what left through the edges, less
what the floor added, only; and before the binary is live its mass does not change. -/
theorem live_mass_partial (hs : TotalShift sh) {m : SolverData} {D N : Nat} (hm : MeshData m.conserveLinear m D N) (hS : Sound m N)
    (fuel : Nat) (z : Fin 9 → Bool) (s : Nat → Solution) (hR : Running m N (s 0)) (n : Nat)
    (h : ∀ k, k < n → nextSolution sh (fuel + 1) z m (s k) = .ok (s (k + 1))) :
    (m.beginLive < (s 0).time → ∃ (M M' : ℝ) (W : Nat → ℝ), diskMass m (s 0) = .ok M ∧ diskMass m (s n) = .ok M' ∧
      (∀ k, k < n → StepLoss sh (fuel + 1) z m N (s k) (s (k + 1)) (W k)) ∧
      M' + (s n).orbit.elements.totalMass + (s n).massEjected + ∑ j ∈ Finset.range n, W j =
        M + (s 0).orbit.elements.totalMass + (s 0).massEjected ∧
      (s 0).orbit.elements.totalMass ≤ (s n).orbit.elements.totalMass) ∧
    ((s n).time ≤ m.beginLive → (s n).orbit.elements.totalMass = (s 0).orbit.elements.totalMass) := by
  obtain ⟨M, L, W, h1, h2, h3⟩ := run_budget_partial hs hm hS fuel z s hR n h
  have hnext : ∀ k, k < n → (s k).time ≤ (s (k + 1)).time ∧
      ((s k).time > m.beginLive → (s (k + 1)).orbit.elements.totalMass - (s k).orbit.elements.totalMass = accreted (s (k + 1)) - accreted (s k)) ∧
      ((s (k + 1)).time ≤ m.beginLive → (s (k + 1)).orbit.elements.totalMass = (s k).orbit.elements.totalMass) := by
    intro k hk
    obtain ⟨f, hf, _⟩ := (h1 k hk.le).2.2.gas
    obtain ⟨_, q2, _, _, _, q6, q7, _⟩ := next_budget hs hm hS (h1 k hk.le).2.2 (h k hk) hf
    exact ⟨q2, q6, q7⟩
  constructor
  · intro hlive
    have key : ∀ k, k ≤ n → (s 0).time ≤ (s k).time ∧ (s k).orbit.elements.totalMass - (s 0).orbit.elements.totalMass = accreted (s k) - accreted (s 0) := by
      intro k
      induction k with
      | zero => exact fun _ => ⟨le_rfl, by rw [sub_self, sub_self]⟩
      | succ k ih =>
        intro hk
        obtain ⟨i1, i2⟩ := ih (by omega)
        obtain ⟨q1, q2, _⟩ := hnext k (by omega)
        have := q2 (lt_of_lt_of_le hlive i1)
        exact ⟨i1.trans q1, by linarith⟩
    obtain ⟨e1, _, e3, _⟩ := h3 n le_rfl
    have e := (key n le_rfl).2
    refine ⟨M 0, M n, W, (h1 0 (Nat.zero_le _)).1, (h1 n le_rfl).1, h2, by linarith, ?_⟩
    have := e3 0
    have := e3 1
    unfold accreted at e
    linarith
  · intro hlive
    have key : ∀ j, j ≤ n → (s (n - j)).time ≤ m.beginLive ∧ (s n).orbit.elements.totalMass = (s (n - j)).orbit.elements.totalMass := by
      intro j
      induction j with
      | zero => exact fun _ => ⟨hlive, rfl⟩
      | succ j ih =>
        intro hj
        obtain ⟨i1, i2⟩ := ih (by omega)
        obtain ⟨q1, _, q3⟩ := hnext (n - (j + 1)) (by omega)
        rw [show n - (j + 1) + 1 = n - j by omega] at q1 q3
        exact ⟨q1.trans i1, i2.trans (q3 i1)⟩
    have := (key n le_rfl).2
    rwa [Nat.sub_self] at this

/-- Non-vacuity: a run of one step from the initial state with the default values, in both modes, with a live binary or not. -/
example (lin : Bool) (z : Fin 9 → Bool) : ∃ (m : SolverData) (s : Nat → Solution), m.conserveLinear = lin ∧ MeshData m.conserveLinear m 4 24 ∧ Sound m 24 ∧
    Running m 24 (s 0) ∧ ∀ k, k < 1 → nextSolution exShift 1 z m (s k) = .ok (s (k + 1)) := by
  obtain ⟨m, s, f, b, dt, s1, hl, h1, h2, hE, hr, hdt, hk, hf, hd, e⟩ := step_exists lin 0 z false
  refine ⟨{ m with cfl := 1 / 2 }, fun k => if k = 0 then s else s1, hl,
    ⟨h1.shaped, h1.blockSize, h1.radius, h1.vertices, h1.centers, h1.areas, h1.buffer, h1.initial⟩,
    ⟨h2.physical.mach, h2.physical.softening, h2.sink, hr.le, h2.ramp, h2.offCenter, by show 0 ≤ m.recommendedStep; rw [hd]; exact hdt.le, by norm_num⟩,
    ⟨⟨f, h2.blocks, fun i c hi x hx y hy => (h2.density i c hi x hx y hy).le⟩, hE.M, hE.q⟩, fun k hk' => ?_⟩
  obtain rfl : k = 0 := by omega
  show nextSolution exShift 1 z { m with cfl := 1 / 2 } s = .ok s1
  unfold nextSolution attempt
  rw [if_pos hf, Outcome.bind_ok, if_pos hk]
  show (match advance exShift 1 z m s m.recommendedStep false with | .throws _ => _ | r => r) = _
  rw [hd, e]

/-! ### The motion of a live binary -/

theorem elements_cm {s : State} {t : ℝ} {E : FullElements} (h : computeOrbitalElements s t = .ok E) :
    s.body1.mass + s.body2.mass ≠ 0 ∧ Spec.CentreOfMass s E.cmX E.cmY E.cmVx E.cmVy := by
  unfold computeOrbitalElements at h
  simp only at h
  split at h
  · cases h
  · rename_i hne
    split at h
    · cases h
    · have h0 : s.body1.mass + s.body2.mass ≠ 0 := fun h0 => hne (.inl h0)
      unfold elementsOf at h
      rcases ite_eq_iff.1 h with ⟨_, h⟩ | ⟨_, h⟩
      · cases h
      · have h := Outcome.ok.inj h
        rw [← h]
        refine ⟨h0, ?_, ?_, ?_, ?_⟩ <;> dsimp only [frameOf] <;> rw [mul_div_cancel₀ _ h0] <;> ring

theorem diff_cm {a b D : FullElements} (h : diff a b = .ok D) : D.cmX = b.cmX - a.cmX ∧ D.cmY = b.cmY - a.cmY ∧ D.cmVx = b.cmVx - a.cmVx ∧
    D.cmVy = b.cmVy - a.cmVy := by
  unfold diff at h
  obtain ⟨P, _, rfl⟩ := Outcome.map_eq_ok.1 h
  exact ⟨rfl, rfl, rfl, rfl⟩

/-- **C99**: in an update of a live binary on an elliptic orbit, with the recoil of the accreted gas, the momentum of the bodies changes by what was accreted
and by the pull of the gas (the latter times the ratio of the masses after and before: the two are taken into account one by one).  Their centre of mass moves
with its velocity, and toward the body that accretes. `t` is what is recorded of the bodies `b` in the update: see `step_records_partial`. -/
theorem live_motion {fuel : Nat} {z : Fin 9 → Bool} {m : SolverData} {s s1 : Solution} {dt : ℝ} {safe : Bool}
    (h : advance sh fuel z m s dt safe = .ok s1) (hE : Elliptic s.orbit.elements) (hlive : m.beginLive < s.time) (hrec : m.noAccretionForce = false) :
    ∃ u1 t b, stepCore sh fuel z m.conserveLinear m s dt safe = .ok (u1, t, b) ∧ fullTwoBodyState s.orbit s.time = .ok b ∧
      ∃ M M', M = s.orbit.elements.totalMass ∧ 0 < M ∧ M' ≠ 0 ∧
      M' = M + ((t.on 0).mass + (t.on 1).mass) ∧ s1.orbit.elements.totalMass = M' ∧
      M' * s1.orbit.cmVx - M * s.orbit.cmVx = (t.on 0).momentumX + (t.on 1).momentumX + ((t.on 0).forceX + (t.on 1).forceX) * (M' / M) ∧
      M' * s1.orbit.cmVy - M * s.orbit.cmVy = (t.on 0).momentumY + (t.on 1).momentumY + ((t.on 0).forceY + (t.on 1).forceY) * (M' / M) ∧
      M' * (s1.orbit.cmX - (s.orbit.cmX + s.orbit.cmVx * dt)) = (t.on 0).mass * (b.body1.x - s.orbit.cmX) + (t.on 1).mass * (b.body2.x - s.orbit.cmX) ∧
      M' * (s1.orbit.cmY - (s.orbit.cmY + s.orbit.cmVy * dt)) = (t.on 0).mass * (b.body1.y - s.orbit.cmY) + (t.on 1).mass * (b.body2.y - s.orbit.cmY) := by
  obtain ⟨u1, t, b, e1, _, _, hM', _⟩ := advance_orbit h
  unfold advance advanceMode at h
  rw [e1, Outcome.bind_ok] at h
  obtain ⟨E, hEo, h⟩ := Outcome.bind_eq_ok.1 h
  obtain ⟨d1, hd1, h⟩ := Outcome.bind_eq_ok.1 h
  obtain ⟨d2, hd2, h⟩ := Outcome.bind_eq_ok.1 h
  have he := validate_eq h
  have hb : fullTwoBodyState s.orbit s.time = .ok b := by
    unfold stepCore at e1
    obtain ⟨r, hr, e1⟩ := Outcome.bind_eq_ok.1 e1
    obtain ⟨_, _, e1⟩ := Outcome.bind_eq_ok.1 e1
    cases e1
    unfold stepFluxes at hr
    iterate 9 obtain ⟨_, _, hr⟩ := Outcome.bind_eq_ok.1 hr
    obtain ⟨b', hb, hr⟩ := Outcome.bind_eq_ok.1 hr
    iterate 3 obtain ⟨_, _, hr⟩ := Outcome.bind_eq_ok.1 hr
    cases hr
    exact hb
  obtain ⟨c1, c2, ⟨c3, c4, c5, c6⟩, _⟩ := full_state_elements s.orbit s.time b hE.a hE.M hE.q hE.e0 hE.e1 hb
  have hM := hE.M
  have hq := hE.q
  unfold stepOrbits at hEo
  obtain ⟨a1, ha1, hEo⟩ := Outcome.bind_eq_ok.1 hEo
  obtain ⟨a2, ha2, hEo⟩ := Outcome.bind_eq_ok.1 hEo
  obtain ⟨g1, hg1, hEo⟩ := Outcome.bind_eq_ok.1 hEo
  obtain ⟨g2, hg2, hEo⟩ := Outcome.bind_eq_ok.1 hEo
  obtain ⟨A, hA, hEo⟩ := Outcome.bind_eq_ok.1 hEo
  obtain ⟨G, hG, hEo⟩ := Outcome.bind_eq_ok.1 hEo
  cases hEo
  have pAcc : ∀ {B B' : PointMass} {t : BodyTotals}, bodyAcc m B t = .ok B' → B'.mass = B.mass + t.mass ∧ B'.x = B.x ∧ B'.y = B.y ∧
      B'.mass * B'.vx = B.mass * B.vx + t.momentumX ∧ B'.mass * B'.vy = B.mass * B.vy + t.momentumY := by
    intro B B' t h
    unfold bodyAcc at h
    split at h
    · cases h
    · rename_i hne
      cases h
      rw [hrec]
      exact ⟨rfl, rfl, rfl, mul_div_cancel₀ _ hne, mul_div_cancel₀ _ hne⟩
  have pGrv : ∀ {B B' : PointMass} {t : BodyTotals}, bodyGrv B t = .ok B' → B'.mass = B.mass ∧ B'.x = B.x ∧ B'.y = B.y ∧
      B.mass * B'.vx = B.mass * B.vx + t.forceX ∧ B.mass * B'.vy = B.mass * B.vy + t.forceY := by
    intro B B' t h
    unfold bodyGrv at h
    split at h
    · cases h
    · rename_i hne
      cases h
      exact ⟨rfl, rfl, rfl, by dsimp only; field_simp, by dsimp only; field_simp⟩
  obtain ⟨p1, p2, p3, p4, p5⟩ := pAcc ha1
  obtain ⟨q1, q2, q3, q4, q5⟩ := pAcc ha2
  obtain ⟨r1, r2, r3, r4, r5⟩ := pGrv hg1
  obtain ⟨w1, w2, w3, w4, w5⟩ := pGrv hg2
  obtain ⟨hne, A1, A2, A3, A4⟩ := elements_cm hA
  obtain ⟨_, G1, G2, G3, G4⟩ := elements_cm hG
  dsimp only at hne A1 A2 A3 A4 G1 G2 G3 G4
  rw [p1, q1] at hne
  rw [p4, q4, p1, q1] at A3
  rw [p5, q5, p1, q1] at A4
  rw [p1, q1, p2, q2] at A1
  rw [p1, q1, p3, q3] at A2
  rw [r1, w1] at G1 G2 G3 G4
  rw [r2, w2] at G1
  rw [r3, w3] at G2
  rw [r4, w4] at G3
  rw [r5, w5] at G4
  rw [c1] at c3 c4 c5 c6 G1 G2 G3 G4
  obtain ⟨k1, k2, k3, k4⟩ := diff_cm hd1
  obtain ⟨l1, l2, l3, l4⟩ := diff_cm hd2
  have hcase : (open Classical in if s.time > m.beginLive then (1 : ℝ) else 0) = 1 := if_pos hlive
  generalize hMd : s.orbit.elements.totalMass = M at *
  have e0 : b.body1.mass + (t.on 0).mass + (b.body2.mass + (t.on 1).mass) = M + ((t.on 0).mass + (t.on 1).mass) := by linarith
  rw [e0] at hne A1 A2 A3 A4
  have hM0 : M ≠ 0 := hM.ne'
  have gX : G.cmX = s.orbit.cmX := mul_left_cancel₀ hM0 (by linarith)
  have gY : G.cmY = s.orbit.cmY := mul_left_cancel₀ hM0 (by linarith)
  have gVx : G.cmVx = s.orbit.cmVx + ((t.on 0).forceX + (t.on 1).forceX) / M := mul_left_cancel₀ hM0 (by
    rw [mul_add, mul_div_cancel₀ _ hM0]
    linarith)
  have gVy : G.cmVy = s.orbit.cmVy + ((t.on 0).forceY + (t.on 1).forceY) / M := mul_left_cancel₀ hM0 (by
    rw [mul_add, mul_div_cancel₀ _ hM0]
    linarith)
  refine ⟨u1, t, b, e1, hb, M, _, rfl, hM, hne, rfl, ?_, ?_, ?_, ?_, ?_⟩
  · rw [hM', hcase]
    linarith
  · have e : s1.orbit.cmVx = s.orbit.cmVx + (d1.cmVx + d2.cmVx + 0) * 1 := by
      rw [he]
      exact congrArg (fun k => s.orbit.cmVx + (d1.cmVx + d2.cmVx + 0) * k) hcase
    rw [e, k3, l3, gVx]
    linear_combination c5 - A3
  · have e : s1.orbit.cmVy = s.orbit.cmVy + (d1.cmVy + d2.cmVy + 0) * 1 := by
      rw [he]
      exact congrArg (fun k => s.orbit.cmVy + (d1.cmVy + d2.cmVy + 0) * k) hcase
    rw [e, k4, l4, gVy]
    linear_combination c6 - A4
  · have e : s1.orbit.cmX = s.orbit.cmX + (d1.cmX + d2.cmX + s.orbit.cmVx * dt) * 1 := by
      rw [he]
      exact congrArg (fun k => s.orbit.cmX + (d1.cmX + d2.cmX + s.orbit.cmVx * dt) * k) hcase
    rw [e, k1, l1, gX]
    linear_combination c3 - A1
  · have e : s1.orbit.cmY = s.orbit.cmY + (d1.cmY + d2.cmY + s.orbit.cmVy * dt) * 1 := by
      rw [he]
      exact congrArg (fun k => s.orbit.cmY + (d1.cmY + d2.cmY + s.orbit.cmVy * dt) * k) hcase
    rw [e, k2, l2, gY]
    linear_combination c4 - A2

/-- Non-vacuity: short updates from the initial state with the default values, with a binary that is live from the beginning. -/
example (lin : Bool) (fuel : Nat) (z : Fin 9 → Bool) (safe : Bool) : ∃ (m : SolverData) (s s1 : Solution) (dt : ℝ), m.conserveLinear = lin ∧ 0 < dt ∧
    Elliptic s.orbit.elements ∧ m.beginLive < s.time ∧ m.noAccretionForce = false ∧ advance exShift (fuel + 1) z m s dt safe = .ok s1 := by
  obtain ⟨n, m, s, b, _, h1, h2, _, _, hE, hl, _, hr, _⟩ := start_partial exShift_total (defaults_sensible lin) defaultFocus (.inl (by norm_num [defaults]))
  have hl' : m.conserveLinear = lin := hl
  obtain ⟨f, h2⟩ : ∃ f, StateData lin m 24 s f b := ⟨_, h2⟩
  have h1 : MeshData lin m 4 24 := h1
  rw [← hl'] at h1 h2
  obtain ⟨ε, h0, hε⟩ := short_step (m := { m with beginLive := s.time - 1, noAccretionForce := false }) exShift_total
    ⟨h1.shaped, h1.blockSize, h1.radius, h1.vertices, h1.centers, h1.areas, h1.buffer, h1.initial⟩
    ⟨h2.blocks, h2.density, h2.bodies, h2.physical, h2.sink, h2.ramp, h2.offCenter⟩ hE (by show 0 ≤ m.params.sinkRate; rw [hr]; norm_num [defaults]) fuel z safe
  obtain ⟨s1, e1⟩ := hε ε h0.le le_rfl
  exact ⟨{ m with beginLive := s.time - 1, noAccretionForce := false }, s, s1, ε, hl', h0, hE, by show s.time - 1 < s.time; linarith, rfl, e1⟩

end Verif.Binary
