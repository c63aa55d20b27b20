import Verif.Lemmas.BinaryDisk

/-!
# C67, C75: the budget of a step of the binary program, and the momentum of gas and bodies

The hypotheses of the theorems are met by the initial state of a run with the default values (or with `conserve_linear_p=0`): `step_exists` and the
example after it in `Verif/Props/BinarySetup.lean`.
-/

namespace Verif.Binary

open Verif Verif.Nd Verif.Tree Iso2d Geometry TwoBody

variable {sh : Nat → Outcome Nat}

theorem validate_eq {lin : Bool} {m : SolverData} {s s1 : Solution} (h : validate sh lin m s = .ok s1) : s1 = s := by
  unfold validate at h
  obtain ⟨F, _, h⟩ := Outcome.bind_eq_ok.1 h
  split at h
  · cases h
  · exact (Outcome.ok.inj h).symm

/-- What a step that succeeds returns. -/
theorem advance_inv {fuel : Nat} {z : Fin 9 → Bool} {m : SolverData} {s s1 : Solution} {dt : ℝ} {safe : Bool}
    (h : advance sh fuel z m s dt safe = .ok s1) :
    ∃ u1 t b, stepCore sh fuel z m.conserveLinear m s dt safe = .ok (u1, t, b) ∧ cons m.conserveLinear s1 = u1 ∧ s1.time = s.time + dt ∧
      (∀ k, s1.massAccreted k = s.massAccreted k + (t.on k).mass) ∧ (∀ k, s1.angmomAccreted k = s.angmomAccreted k + (t.on k).angmom) ∧
      (∀ k, s1.torque k = s.torque k + (t.on k).torque) ∧ s1.massEjected = s.massEjected + t.massEjected ∧
      s1.angmomEjected = s.angmomEjected + t.angmomEjected ∧ validate sh m.conserveLinear m s1 = .ok s1 := by
  unfold advance advanceMode at h
  obtain ⟨⟨u1, t, b⟩, e1, h⟩ := Outcome.bind_eq_ok.1 h
  obtain ⟨E, _, h⟩ := Outcome.bind_eq_ok.1 h
  obtain ⟨d1, _, h⟩ := Outcome.bind_eq_ok.1 h
  obtain ⟨d2, _, h⟩ := Outcome.bind_eq_ok.1 h
  have he := validate_eq h
  rw [← he] at h
  refine ⟨u1, t, b, e1, ?_, ?_, ?_, ?_, ?_, ?_, ?_, h⟩
  · rw [he]
    unfold cons
    cases m.conserveLinear <;> rfl
  all_goals rw [he]
  all_goals intro k
  all_goals rfl


/-! ### Linear functions of the conserved quantities -/

/-- The density. -/
noncomputable def linA : Tri →ₗ[ℝ] ℝ where
  toFun := Tri.a
  map_add' _ _ := rfl
  map_smul' k u := mul_comm u.a k

/-- The second conserved quantity. -/
noncomputable def linB : Tri →ₗ[ℝ] ℝ where
  toFun := Tri.b
  map_add' _ _ := rfl
  map_smul' k u := mul_comm u.b k

/-- The third conserved quantity. -/
noncomputable def linC : Tri →ₗ[ℝ] ℝ where
  toFun := Tri.c
  map_add' _ _ := rfl
  map_smul' k u := mul_comm u.c k

/-- The angular momentum at a position. -/
noncomputable def linL (lin : Bool) (p : ℝ × ℝ) : Tri →ₗ[ℝ] ℝ := if lin then p.1 • linC - p.2 • linB else linC

theorem linL_apply (lin : Bool) (p : ℝ × ℝ) (u : Tri) : linL lin p u = lz lin u p := by
  unfold linL lz
  cases lin <;> rfl

theorem lz_force (lin : Bool) (p f : ℝ × ℝ) : lz lin (forceSource lin p f) p = p.1 * f.2 - p.2 * f.1 := by
  unfold lz forceSource
  cases lin <;> rfl

theorem gravS_a (lin : Bool) (m : SolverData) (B : PointMass) (dt : ℝ) (u : Tri) (p : ℝ × ℝ) : (gravS lin m B dt u p).a = 0 := by
  unfold gravS forceSource
  cases lin <;> exact zero_mul _

theorem lz_mul (lin : Bool) (u : Tri) (k : ℝ) (p : ℝ × ℝ) : lz lin (u.mul k) p = lz lin u p * k := by
  rw [← linL_apply, ← linL_apply, show u.mul k = k • u from rfl, map_smul, smul_eq_mul, mul_comm]

theorem lz_neg (lin : Bool) (u : Tri) (p : ℝ × ℝ) : lz lin u.neg p = -lz lin u p := by
  rw [← linL_apply, ← linL_apply, show u.neg = -u from rfl, map_neg]

theorem momentum_sink (lin : Bool) (u : Tri) (k dt : ℝ) (p : ℝ × ℝ) :
    momentum lin ((u.neg.mul k).mul dt) p = (-(dt * (k * (momentum lin u p).1)), -(dt * (k * (momentum lin u p).2))) := by
  unfold momentum Tri.neg Tri.mul
  cases lin
  · rw [if_neg (by decide), if_neg (by decide)]
    refine Prod.ext ?_ ?_ <;> dsimp only <;> ring
  · rw [if_pos rfl, if_pos rfl]
    refine Prod.ext ?_ ?_ <;> dsimp only <;> ring

theorem flux_total (ℓ : Tri →ₗ[ℝ] ℝ) {β : Type} {lin : Bool} {T : Verif.Tree.Tree 2 β} {N : Nat} {fx fy : Quad Tri} {gx gy : Index 2 → Nat → Nat → Tri}
    (hx : Fluxes lin T N 0 fx gx) (hy : Fluxes lin T N 1 fy gy) :
    cellSum T N (fun i x y => ℓ ((gx i (x + 1) y - gx i x y) + (gy i (y + 1) x - gy i y x))) = ℓ (outflow T N 0 gx) + ℓ (outflow T N 1 gy) := by
  rw [← hx.cells, ← hy.cells, ← map_add, ← cellSum_add]
  exact cellSum_hom ℓ.toAddMonoidHom _ _ _

section
variable (hs : TotalShift sh) {m : SolverData} {D N : Nat} (hm : MeshData m.conserveLinear m D N) {s : Solution}
  {f : Index 2 → Nat → Nat → Tri} {b : State} (hst : StateData m.conserveLinear m N s f b) {dt : ℝ} (hdt : 0 ≤ dt) (hr : 0 ≤ m.params.sinkRate)
include hs hm hst hdt hr

/-- **C67**, **C75**, what the counters say: a step has a result, and what it records of each body is the integral over the disk of the mass,
angular momentum and momentum that the sink takes away, and minus the torque and the force of the body on the gas. -/
theorem step_records_partial (fuel : Nat) (z : Fin 9 → Bool) (safe : Bool) :
    ∃ u1 t, stepCore sh (fuel + 1) z m.conserveLinear m s dt safe = .ok (u1, t, b) ∧ ∀ k : Fin 2,
      (t.on k).mass = dt * diskIntegral m N f (fun u p => drain m.params.sinkRate m.params.sinkRadius (body b k) p * u.a) ∧
      (t.on k).angmom = dt * diskIntegral m N f (fun u p => drain m.params.sinkRate m.params.sinkRadius (body b k) p * lz m.conserveLinear u p) ∧
      (t.on k).momentumX = dt * diskIntegral m N f (fun u p => drain m.params.sinkRate m.params.sinkRadius (body b k) p * (momentum m.conserveLinear u p).1) ∧
      (t.on k).momentumY = dt * diskIntegral m N f (fun u p => drain m.params.sinkRate m.params.sinkRadius (body b k) p * (momentum m.conserveLinear u p).2) ∧
      (t.on k).torque = -(dt * diskIntegral m N f (fun u p =>
        u.a * (p.1 * (pull m.params.softening (body b k) p).2 - p.2 * (pull m.params.softening (body b k) p).1))) ∧
      (t.on k).forceX = -(dt * diskIntegral m N f (fun u p => u.a * (pull m.params.softening (body b k) p).1)) ∧
      (t.on k).forceY = -(dt * diskIntegral m N f (fun u p => u.a * (pull m.params.softening (body b k) p).2)) := by
  obtain ⟨br, hbr⟩ := hm.buffer
  obtain ⟨init, hinit⟩ := hm.initial
  obtain ⟨p0, fx, fy, gx, gy, u1, t, g, e, eF, hx, hy, eC, hg, hS⟩ := stepCore_ok hs hm hst hdt hr hbr hinit fuel z safe
  refine ⟨u1, t, eC, fun k => ⟨?_, ?_, ?_, ?_, ?_, ?_, ?_⟩⟩
  · rw [hS.mass k, ← cellSum_neg, diskIntegral, ← cellSum_mul]
    refine cellSum_congr fun i c hi x _ y _ => ?_
    unfold sinkS Tri.neg Tri.mul
    dsimp only
    ring
  · rw [hS.angmom k, ← cellSum_neg, diskIntegral, ← cellSum_mul]
    refine cellSum_congr fun i c hi x _ y _ => ?_
    unfold sinkS
    rw [lz_mul, lz_mul, lz_neg]
    ring
  · rw [hS.momentumX k, ← cellSum_neg, diskIntegral, ← cellSum_mul]
    refine cellSum_congr fun i c hi x _ y _ => ?_
    unfold sinkS
    rw [momentum_sink]
    ring
  · rw [hS.momentumY k, ← cellSum_neg, diskIntegral, ← cellSum_mul]
    refine cellSum_congr fun i c hi x _ y _ => ?_
    unfold sinkS
    rw [momentum_sink]
    ring
  · rw [hS.torque k, diskIntegral, ← cellSum_mul]
    refine congrArg _ (cellSum_congr fun i c hi x _ y _ => ?_)
    unfold gravS gravF
    rw [lz_mul, lz_force]
    ring
  · rw [hS.forceX k, diskIntegral, ← cellSum_mul]
    refine congrArg _ (cellSum_congr fun i c hi x _ y _ => ?_)
    unfold gravF
    ring
  · rw [hS.forceY k, diskIntegral, ← cellSum_mul]
    refine congrArg _ (cellSum_congr fun i c hi x _ y _ => ?_)
    unfold gravF
    ring

/-- **C67**, mass: the change of the mass of the disk in a step is minus what the counters of accretion and ejection record, minus what flows out
through the edges of the domain, plus the mass the density floor adds (one percent where the density is below the floor, in the mode that
conserves linear momentum). -/
theorem mass_budget_partial (fuel : Nat) (z : Fin 9 → Bool) (safe : Bool) (s1 : Solution) (h : advance sh (fuel + 1) z m s dt safe = .ok s1) :
    ∃ M0 M1 gx gy, diskMass m s = .ok M0 ∧ diskMass m s1 = .ok M1 ∧ StepFluxes sh (fuel + 1) z m s safe N gx gy ∧
      (∀ k, s.massAccreted k ≤ s1.massAccreted k) ∧
      M1 - M0 = -(s1.massAccreted 0 - s.massAccreted 0) - (s1.massAccreted 1 - s.massAccreted 1) - (s1.massEjected - s.massEjected) -
        dt * ((outflow m.vertices N 0 gx).a + (outflow m.vertices N 1 gy).a) +
        (if m.conserveLinear then diskIntegral m N f (fun u _ => open Classical in if u.a < m.params.densityFloor then u.a / 100 else 0) else 0) := by
  obtain ⟨br, hbr⟩ := hm.buffer
  obtain ⟨init, hinit⟩ := hm.initial
  obtain ⟨p0, fx, fy, gx, gy, u1, t, g, e, eF, hx, hy, eC, hg, hS⟩ := stepCore_ok hs hm hst hdt hr hbr hinit fuel z safe
  obtain ⟨u1', t', b', eC', hcons, _, hma, _, _, hme, _, _⟩ := advance_inv h
  rw [eC] at eC'
  cases eC'
  rw [← hcons] at hg
  refine ⟨_, _, gx, gy, diskMass_ok hm hst.blocks, diskMass_ok hm hg, ⟨p0, b, fx, fy, eF, hx.along, hy.along⟩, fun k => ?_, ?_⟩
  · rw [hma k, hS.mass k, ← cellSum_neg]
    refine le_add_of_nonneg_right (cellSum_nonneg fun i c hi x hx y hy => ?_)
    have h1 := hst.density i c hi x hx y hy
    have h2 := drain_nonneg (radius := m.params.sinkRadius) hr (body b k) (cellCenter m.params.domainRadius N i x y)
    have h3 := mul_nonneg (mul_nonneg (mul_nonneg h1.le h2) hdt) (sq_nonneg (cellSize m.params.domainRadius N i))
    show 0 ≤ -(-(f i x y).a * drain _ _ _ _ * dt * _)
    linarith
  · have hB := hS.budget hm fun _ _ _ => linA
    have e1 : cellSum m.vertices N (fun i x y => linA (gravS m.conserveLinear m b.body1 dt (f i x y) (cellCenter m.params.domainRadius N i x y)) *
        cellSize m.params.domainRadius N i ^ 2) = 0 := cellSum_zero fun i c _ x _ y _ => by
      show (gravS _ _ _ _ _ _).a * _ = 0
      rw [gravS_a, zero_mul]
    have e2 : cellSum m.vertices N (fun i x y => linA (gravS m.conserveLinear m b.body2 dt (f i x y) (cellCenter m.params.domainRadius N i x y)) *
        cellSize m.params.domainRadius N i ^ 2) = 0 := cellSum_zero fun i c _ x _ y _ => by
      show (gravS _ _ _ _ _ _).a * _ = 0
      rw [gravS_a, zero_mul]
    have e3 : cellSum m.vertices N (fun i x y => linA ((gx i (x + 1) y - gx i x y) + (gy i (y + 1) x - gy i y x))) =
        (outflow m.vertices N 0 gx).a + (outflow m.vertices N 1 gy).a := flux_total linA hx hy
    have e4 : cellSum m.vertices N (fun i x y => linA (e i x y) * cellSize m.params.domainRadius N i ^ 2) =
        if m.conserveLinear then diskIntegral m N f (fun u _ => open Classical in if u.a < m.params.densityFloor then u.a / 100 else 0) else 0 := by
      cases hl : m.conserveLinear with
      | true =>
        rw [if_pos rfl]
        refine cellSum_congr fun i c hi x hx y hy => ?_
        rw [hS.floor hl i c hi x hx y hy]
        refine congrArg (· * _) ?_
        beta_reduce
        by_cases hc : (f i x y).a < m.params.densityFloor
        · rw [if_pos hc, floorCell, if_pos hc]
          show (f i x y).a * (1 / 100) * 1 = _
          ring
        · rw [if_neg hc, floorCell, if_neg hc]
          show (f i x y).a * (1 / 100) * 0 = _
          ring
      | false =>
        rw [if_neg (by decide)]
        refine cellSum_zero fun i c hi x hx y hy => ?_
        show (e i x y).a * _ = 0
        rw [(hS.geometric hl i c hi x hx y hy).1, zero_mul]
    rw [e1, e2, e3, e4] at hB
    have h1 := hS.mass 0
    have h2 := hS.mass 1
    have h3 := hS.massEjected
    have h4 := hma 0
    have h5 := hma 1
    show cellSum m.vertices N (fun i x y => linA (g i x y) * _) - _ = _
    rw [hB, h4, h5, hme, h1, h2, h3]
    show cellSum m.vertices N (fun i x y => (f i x y).a * _) - _ + 0 + 0 + cellSum m.vertices N (fun i x y => (sinkS m b.body1 _ _ _).a * _) +
      cellSum m.vertices N (fun i x y => (sinkS m b.body2 _ _ _).a * _) + cellSum m.vertices N (fun i x y => (bufS _ _ _ _).a * _) + _ - _ = _
    show _ = -(_ + -cellSum m.vertices N (fun i x y => (sinkS m b.body1 _ _ _).a * _) - _) - (_ + -cellSum m.vertices N (fun i x y => (sinkS m b.body2 _ _ _).a * _) - _) - _ - _ + _
    ring

/-- **C67**, angular momentum, in the mode that conserves it: the change of the angular momentum of the disk in a step is minus what the counters of
accretion, torque and ejection record.  Nothing flows through the edges of the domain. -/
theorem angmom_budget_partial (hl : m.conserveLinear = false) (fuel : Nat) (z : Fin 9 → Bool) (safe : Bool) (s1 : Solution)
    (h : advance sh (fuel + 1) z m s dt safe = .ok s1) :
    ∃ L0 L1, diskAngmom m s = .ok L0 ∧ diskAngmom m s1 = .ok L1 ∧
      L1 - L0 = -(s1.angmomAccreted 0 - s.angmomAccreted 0) - (s1.angmomAccreted 1 - s.angmomAccreted 1) - (s1.torque 0 - s.torque 0) -
        (s1.torque 1 - s.torque 1) - (s1.angmomEjected - s.angmomEjected) := by
  obtain ⟨br, hbr⟩ := hm.buffer
  obtain ⟨init, hinit⟩ := hm.initial
  obtain ⟨p0, fx, fy, gx, gy, u1, t, g, e, eF, hx, hy, eC, hg, hS⟩ := stepCore_ok hs hm hst hdt hr hbr hinit fuel z safe
  obtain ⟨u1', t', b', eC', hcons, _, _, haa, hto, _, hae, _⟩ := advance_inv h
  rw [eC] at eC'
  cases eC'
  rw [← hcons] at hg
  refine ⟨_, _, diskAngmom_ok hm hst.blocks, diskAngmom_ok hm hg, ?_⟩
  have hB := hS.budget hm fun i x y => linL m.conserveLinear (cellCenter m.params.domainRadius N i x y)
  simp only [linL_apply] at hB
  have e3 : cellSum m.vertices N (fun i x y => lz m.conserveLinear ((gx i (x + 1) y - gx i x y) + (gy i (y + 1) x - gy i y x))
      (cellCenter m.params.domainRadius N i x y)) = 0 := by
    have h1 : (outflow m.vertices N 0 gx).c = 0 := hx.closed hl
    have h2 : (outflow m.vertices N 1 gy).c = 0 := hy.closed hl
    rw [hl]
    refine (flux_total linC hx hy).trans ?_
    show (outflow m.vertices N 0 gx).c + (outflow m.vertices N 1 gy).c = 0
    rw [h1, h2, add_zero]
  have e4 : cellSum m.vertices N (fun i x y => lz m.conserveLinear (e i x y) (cellCenter m.params.domainRadius N i x y) *
      cellSize m.params.domainRadius N i ^ 2) = 0 := cellSum_zero fun i c hi x hx y hy => by
    rw [hl]
    show (e i x y).c * _ = 0
    rw [(hS.geometric hl i c hi x hx y hy).2, zero_mul]
  rw [e3, e4] at hB
  rw [hB, haa 0, haa 1, hto 0, hto 1, hae, hS.angmom 0, hS.angmom 1, hS.torque 0, hS.torque 1, hS.angmomEjected]
  simp only [show body b 0 = b.body1 from rfl, show body b 1 = b.body2 from rfl]
  ring

/-- **C67**, angular momentum, in the mode that conserves linear momentum: the budget has a further term, the moments of the differences of the fluxes
(which is more than what flows through the edges of the domain), and the angular momentum the density floor adds. -/
theorem angmom_budget_linear_partial (hl : m.conserveLinear = true) (fuel : Nat) (z : Fin 9 → Bool) (safe : Bool) (s1 : Solution)
    (h : advance sh (fuel + 1) z m s dt safe = .ok s1) :
    ∃ L0 L1 gx gy, diskAngmom m s = .ok L0 ∧ diskAngmom m s1 = .ok L1 ∧ StepFluxes sh (fuel + 1) z m s safe N gx gy ∧
      L1 - L0 = -(s1.angmomAccreted 0 - s.angmomAccreted 0) - (s1.angmomAccreted 1 - s.angmomAccreted 1) - (s1.torque 0 - s.torque 0) -
        (s1.torque 1 - s.torque 1) - (s1.angmomEjected - s.angmomEjected) -
        dt * cellSum m.vertices N (fun i x y => lz true ((gx i (x + 1) y - gx i x y) + (gy i (y + 1) x - gy i y x))
          (cellCenter m.params.domainRadius N i x y)) +
        diskIntegral m N f (fun u p => open Classical in if u.a < m.params.densityFloor then lz true u p / 100 else 0) := by
  obtain ⟨br, hbr⟩ := hm.buffer
  obtain ⟨init, hinit⟩ := hm.initial
  obtain ⟨p0, fx, fy, gx, gy, u1, t, g, e, eF, hx, hy, eC, hg, hS⟩ := stepCore_ok hs hm hst hdt hr hbr hinit fuel z safe
  obtain ⟨u1', t', b', eC', hcons, _, _, haa, hto, _, hae, _⟩ := advance_inv h
  rw [eC] at eC'
  cases eC'
  rw [← hcons] at hg
  refine ⟨_, _, gx, gy, diskAngmom_ok hm hst.blocks, diskAngmom_ok hm hg, ⟨p0, b, fx, fy, eF, hx.along, hy.along⟩, ?_⟩
  have hB := hS.budget hm fun i x y => linL m.conserveLinear (cellCenter m.params.domainRadius N i x y)
  simp only [linL_apply] at hB
  have e4 : cellSum m.vertices N (fun i x y => lz m.conserveLinear (e i x y) (cellCenter m.params.domainRadius N i x y) *
      cellSize m.params.domainRadius N i ^ 2) =
        diskIntegral m N f (fun u p => open Classical in if u.a < m.params.densityFloor then lz true u p / 100 else 0) := by
    refine cellSum_congr fun i c hi x hx y hy => ?_
    rw [hS.floor hl i c hi x hx y hy, hl]
    refine congrArg (· * _) ?_
    beta_reduce
    by_cases hc : (f i x y).a < m.params.densityFloor
    · rw [if_pos hc, floorCell, if_pos hc, lz_mul, lz_mul]
      ring
    · rw [if_neg hc, floorCell, if_neg hc, lz_mul, lz_mul]
      ring
  rw [e4] at hB
  rw [hB, haa 0, haa 1, hto 0, hto 1, hae, hS.angmom 0, hS.angmom 1, hS.torque 0, hS.torque 1, hS.angmomEjected]
  simp only [show body b 0 = b.body1 from rfl, show body b 1 = b.body2 from rfl, hl]
  ring

/-- **C75**, Newton's third law: in the mode that conserves linear momentum, the momentum of the gas changes in a step by minus the momentum the
step gives to the two bodies by gravity and by accretion, apart from what flows out through the edges of the domain, from the buffer (which damps
towards `init` at the rate `br`), and from the density floor. -/
theorem momentum_budget_partial (hl : m.conserveLinear = true) {br : Index 2 → Nat → Nat → ℝ} (hbr : Blocks m.vertices m.bufferRate N N br)
    {init : Index 2 → Nat → Nat → Tri} (hinit : Blocks m.vertices m.initialU N N init) (fuel : Nat) (z : Fin 9 → Bool) (safe : Bool) :
    ∃ u1 t, ∃ f1 gx gy : Index 2 → Nat → Nat → Tri, stepCore sh (fuel + 1) z m.conserveLinear m s dt safe = .ok (u1, t, b) ∧
      Blocks m.vertices u1 N N f1 ∧ StepFluxes sh (fuel + 1) z m s safe N gx gy ∧
      diskIntegral m N f1 (fun u _ => u.b) - diskIntegral m N f (fun u _ => u.b) =
        -((t.on 0).forceX + (t.on 0).momentumX) - ((t.on 1).forceX + (t.on 1).momentumX)
        - dt * ((outflow m.vertices N 0 gx).b + (outflow m.vertices N 1 gy).b)
        + dt * cellSum m.vertices N (fun i x y => br i x y * ((init i x y).b - (f i x y).b) * cellSize m.params.domainRadius N i ^ 2)
        + diskIntegral m N f (fun u _ => open Classical in if u.a < m.params.densityFloor then u.b / 100 else 0) ∧
      diskIntegral m N f1 (fun u _ => u.c) - diskIntegral m N f (fun u _ => u.c) =
        -((t.on 0).forceY + (t.on 0).momentumY) - ((t.on 1).forceY + (t.on 1).momentumY)
        - dt * ((outflow m.vertices N 0 gx).c + (outflow m.vertices N 1 gy).c)
        + dt * cellSum m.vertices N (fun i x y => br i x y * ((init i x y).c - (f i x y).c) * cellSize m.params.domainRadius N i ^ 2)
        + diskIntegral m N f (fun u _ => open Classical in if u.a < m.params.densityFloor then u.c / 100 else 0) := by
  have hinit : Blocks m.vertices (if m.conserveLinear then m.initialU else m.initialQ) N N init := by rw [if_pos hl]; exact hinit
  obtain ⟨p0, fx, fy, gx, gy, u1, t, g, e, eF, hx, hy, eC, hg, hS⟩ := stepCore_ok hs hm hst hdt hr hbr hinit fuel z safe
  refine ⟨u1, t, g, gx, gy, eC, hg, ⟨p0, b, fx, fy, eF, hx.along, hy.along⟩, ?_, ?_⟩
  · have hB := hS.budget hm fun _ _ _ => linB
    have e4 : cellSum m.vertices N (fun i x y => linB (e i x y) * cellSize m.params.domainRadius N i ^ 2) =
        diskIntegral m N f (fun u _ => open Classical in if u.a < m.params.densityFloor then u.b / 100 else 0) := by
      refine cellSum_congr fun i c hi x hx y hy => ?_
      rw [hS.floor hl i c hi x hx y hy]
      refine congrArg (· * _) ?_
      beta_reduce
      by_cases hc : (f i x y).a < m.params.densityFloor
      · rw [if_pos hc, floorCell, if_pos hc]
        show (f i x y).b * (1 / 100) * 1 = _
        ring
      · rw [if_neg hc, floorCell, if_neg hc]
        show (f i x y).b * (1 / 100) * 0 = _
        ring
    have e5 : cellSum m.vertices N (fun i x y => linB (bufS dt (init i x y) (f i x y) (br i x y)) * cellSize m.params.domainRadius N i ^ 2) =
        dt * cellSum m.vertices N (fun i x y => br i x y * ((init i x y).b - (f i x y).b) * cellSize m.params.domainRadius N i ^ 2) := by
      rw [← cellSum_mul]
      refine cellSum_congr fun i c hi x hx y hy => ?_
      show ((init i x y).b - (f i x y).b) * br i x y * dt * _ = _
      ring
    rw [e4, e5, flux_total linB hx hy] at hB
    rw [hS.forceX 0, hS.forceX 1, hS.momentumX 0, hS.momentumX 1]
    simp only [show body b 0 = b.body1 from rfl, show body b 1 = b.body2 from rfl, hl] at hB ⊢
    have hB' : diskIntegral m N g (fun u _ => u.b) = _ := hB
    rw [hB']
    show diskIntegral m N f (fun u _ => u.b) - dt * ((outflow m.vertices N 0 gx).b + (outflow m.vertices N 1 gy).b) +
      cellSum m.vertices N (fun i x y => (gravF m b.body1 (f i x y) (cellCenter m.params.domainRadius N i x y)).1 * dt * _) +
      cellSum m.vertices N (fun i x y => (gravF m b.body2 (f i x y) (cellCenter m.params.domainRadius N i x y)).1 * dt * _) +
      cellSum m.vertices N (fun i x y => (momentum true (sinkS m b.body1 dt (f i x y) (cellCenter m.params.domainRadius N i x y)) (cellCenter m.params.domainRadius N i x y)).1 * _) +
      cellSum m.vertices N (fun i x y => (momentum true (sinkS m b.body2 dt (f i x y) (cellCenter m.params.domainRadius N i x y)) (cellCenter m.params.domainRadius N i x y)).1 * _) + _ + _ - _ = _
    ring
  · have hB := hS.budget hm fun _ _ _ => linC
    have e4 : cellSum m.vertices N (fun i x y => linC (e i x y) * cellSize m.params.domainRadius N i ^ 2) =
        diskIntegral m N f (fun u _ => open Classical in if u.a < m.params.densityFloor then u.c / 100 else 0) := by
      refine cellSum_congr fun i c hi x hx y hy => ?_
      rw [hS.floor hl i c hi x hx y hy]
      refine congrArg (· * _) ?_
      beta_reduce
      by_cases hc : (f i x y).a < m.params.densityFloor
      · rw [if_pos hc, floorCell, if_pos hc]
        show (f i x y).c * (1 / 100) * 1 = _
        ring
      · rw [if_neg hc, floorCell, if_neg hc]
        show (f i x y).c * (1 / 100) * 0 = _
        ring
    have e5 : cellSum m.vertices N (fun i x y => linC (bufS dt (init i x y) (f i x y) (br i x y)) * cellSize m.params.domainRadius N i ^ 2) =
        dt * cellSum m.vertices N (fun i x y => br i x y * ((init i x y).c - (f i x y).c) * cellSize m.params.domainRadius N i ^ 2) := by
      rw [← cellSum_mul]
      refine cellSum_congr fun i c hi x hx y hy => ?_
      show ((init i x y).c - (f i x y).c) * br i x y * dt * _ = _
      ring
    rw [e4, e5, flux_total linC hx hy] at hB
    rw [hS.forceY 0, hS.forceY 1, hS.momentumY 0, hS.momentumY 1]
    simp only [show body b 0 = b.body1 from rfl, show body b 1 = b.body2 from rfl, hl] at hB ⊢
    have hB' : diskIntegral m N g (fun u _ => u.c) = _ := hB
    rw [hB']
    show diskIntegral m N f (fun u _ => u.c) - dt * ((outflow m.vertices N 0 gx).c + (outflow m.vertices N 1 gy).c) +
      cellSum m.vertices N (fun i x y => (gravF m b.body1 (f i x y) (cellCenter m.params.domainRadius N i x y)).2 * dt * _) +
      cellSum m.vertices N (fun i x y => (gravF m b.body2 (f i x y) (cellCenter m.params.domainRadius N i x y)).2 * dt * _) +
      cellSum m.vertices N (fun i x y => (momentum true (sinkS m b.body1 dt (f i x y) (cellCenter m.params.domainRadius N i x y)) (cellCenter m.params.domainRadius N i x y)).2 * _) +
      cellSum m.vertices N (fun i x y => (momentum true (sinkS m b.body2 dt (f i x y) (cellCenter m.params.domainRadius N i x y)) (cellCenter m.params.domainRadius N i x y)).2 * _) + _ + _ - _ = _
    ring

end

/-- **C75**, the recoil: a body gets the momentum that is recorded as its force, and the one that is recorded with the mass it accretes. -/
theorem recoil (m : SolverData) (B B' : PointMass) (t : BodyTotals) :
    (bodyGrv B t = .ok B' → B'.mass = B.mass ∧ B'.mass * B'.vx - B.mass * B.vx = t.forceX ∧ B'.mass * B'.vy - B.mass * B.vy = t.forceY) ∧
    (m.noAccretionForce = false → bodyAcc m B t = .ok B' → B'.mass - B.mass = t.mass ∧
      B'.mass * B'.vx - B.mass * B.vx = t.momentumX ∧ B'.mass * B'.vy - B.mass * B.vy = t.momentumY) := by
  constructor
  · intro h
    unfold bodyGrv at h
    split at h
    · cases h
    · rename_i hB
      cases h
      refine ⟨rfl, ?_, ?_⟩ <;> dsimp only <;> field_simp <;> ring
  · intro hn h
    unfold bodyAcc at h
    split at h
    · cases h
    · rename_i hB
      cases h
      rw [hn]
      refine ⟨?_, ?_, ?_⟩
      · dsimp only
        ring
      · dsimp only
        rw [if_neg (by decide)]
        field_simp
        ring
      · dsimp only
        rw [if_neg (by decide)]
        field_simp
        ring

end Verif.Binary
