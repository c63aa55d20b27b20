import Verif.Lemmas.AdvanceUnits
import Verif.Props.BinarySetup
import Mathlib.Analysis.SpecialFunctions.Artanh

/-!
# C135: the binary program knows no units
-/

namespace Verif.Binary
open Verif Verif.Nd Verif.Tree Iso2d TwoBody Geometry

namespace Scale

variable {c : Scale} {m : SolverData} {s : Solution}

/-! ### The mesh in other units -/

theorem sameShape_field {α β : Type} (f : α → α) (g : β → β) {t : Quad α} {T : Quad β} (h : SameShape t T) : SameShape (field f t) (field g T) :=
  (sameShape_map t _).trans (h.trans (sameShape_map T _).symm)

theorem blocks_field {α β : Type} (f : α → α) (g : β → β) {t : Quad α} {T : Quad β} {k l : Nat} {F : Index 2 → Nat → Nat → α} (h : Blocks T t k l F) :
    Blocks (field g T) (field f t) k l fun i x y => f (F i x y) := by
  refine ⟨sameShape_field f g h.1, fun i B hB => ?_⟩
  obtain ⟨A, hA, rfl⟩ := leafAt_map.1 hB
  exact (h.2 i A hA).map f

theorem cellSize_units (k rd : ℝ) (N : Nat) (i : Index 2) : cellSize (k * rd) N i = k * cellSize rd N i := by
  unfold cellSize
  ring

theorem coordinate_units (k rd : ℝ) (N : Nat) (i : Index 2) (a : Fin 2) (x : ℝ) : coordinate (k * rd) N i a x = k * coordinate rd N i a x := by
  unfold coordinate
  rw [cellSize_units]
  ring

theorem cons_field (lin : Bool) (s : Solution) : ∃ k l, 0 < k ∧ cons lin (c.solution s) = field (tri k l) (cons lin s) := by
  cases lin with
  | true => exact ⟨_, _, c.density_pos, rfl⟩
  | false => exact ⟨_, _, c.density_pos, rfl⟩

theorem meshData_units {lin : Bool} {D N : Nat} (h : MeshData lin m D N) : MeshData lin (c.solver m) D N where
  shaped := by
    refine ⟨fun i A hA => ?_, h.shaped.small, ?_, h.shaped.pos, h.shaped.bound⟩
    · obtain ⟨B, hB, -⟩ := leafAt_map.1 hA
      exact h.shaped.depth i B hB
    · exact Balanced.sameShape (sameShape_map m.vertices _) h.shaped.balanced
  blockSize := h.blockSize
  radius := mul_pos c.length_pos h.radius
  vertices := by
    have := blocks_field (fun x : ℝ × ℝ => (c.length * x.1, c.length * x.2)) (fun x : ℝ × ℝ => (c.length * x.1, c.length * x.2)) h.vertices
    refine ⟨this.1, fun i B hB => (this.2 i B hB).congr rfl rfl fun x _ y _ => ?_⟩
    show _ = (coordinate (c.length * _) N i 0 x, coordinate (c.length * _) N i 1 y)
    rw [coordinate_units, coordinate_units]
  centers := by
    have := blocks_field (fun x : ℝ × ℝ => (c.length * x.1, c.length * x.2)) (fun x : ℝ × ℝ => (c.length * x.1, c.length * x.2)) h.centers
    refine ⟨this.1, fun i B hB => (this.2 i B hB).congr rfl rfl fun x _ y _ => ?_⟩
    show _ = (coordinate (c.length * _) N i 0 _, coordinate (c.length * _) N i 1 _)
    rw [coordinate_units, coordinate_units]
    rfl
  areas := by
    have := blocks_field (fun x : ℝ => c.length ^ 2 * x) (fun x : ℝ × ℝ => (c.length * x.1, c.length * x.2)) h.areas
    refine ⟨this.1, fun i B hB => (this.2 i B hB).congr rfl rfl fun x _ y _ => ?_⟩
    show _ = cellSize (c.length * _) N i ^ 2
    rw [cellSize_units, mul_pow]
  buffer := by
    obtain ⟨f, hf⟩ := h.buffer
    exact ⟨_, blocks_field _ _ hf⟩
  initial := by
    obtain ⟨f, hf⟩ := h.initial
    cases lin with
    | true => exact ⟨_, blocks_field _ _ hf⟩
    | false => exact ⟨_, blocks_field _ _ hf⟩

theorem stateData_units {lin : Bool} {N : Nat} {f : Index 2 → Nat → Nat → Tri} {b : State} (h : StateData lin m N s f b) :
    ∃ f', StateData lin (c.solver m) N (c.solution s) f' (c.bodies b) := by
  obtain ⟨k, l, hk, e⟩ := cons_field (c := c) lin s
  refine ⟨fun i x y => tri k l (f i x y), ?_, ?_, ?_, ?_, ?_, ?_, ?_⟩
  · rw [e]
    exact blocks_field _ _ h.blocks
  · intro i B hB x hx y hy
    obtain ⟨A, hA, -⟩ := leafAt_map.1 hB
    exact mul_pos hk (h.density i A hA x hx y hy)
  · have := of_alike (fullTwoBodyState_units (c := c) s.orbit s.time)
    rw [h.bodies] at this
    exact this
  · exact ⟨h.physical.mach, mul_ne_zero c.length_pos.ne' h.physical.softening, mul_pos c.bodyMass_pos h.physical.mass1, mul_pos c.bodyMass_pos h.physical.mass2⟩
  · exact mul_ne_zero c.length_pos.ne' h.sink
  · exact fun hl => mul_ne_zero c.length_pos.ne' (h.ramp hl)
  · intro hl i B hB
    obtain ⟨A, hA, -⟩ := leafAt_map.1 hB
    exact h.offCenter hl i A hA

/-! ### The property -/

/-- **C135**, one step: if gas and bodies are weighed in the same unit, a step in other units is the step in other units.  That is so for the state that is
returned, for the exception that is thrown, and for undefined behaviour. -/
theorem step_units (sh : Nat → Outcome Nat) (fuel : Nat) (z : Fin 9 → Bool) (c : Scale) (m : SolverData) (s : Solution) (hp : c.Fits m.params)
    (hg : c.gasMass = c.bodyMass) : nextSolution sh fuel z (c.solver m) (c.solution s) = (nextSolution sh fuel z m s).map c.solution :=
  of_alike ((nextSolution_units sh (setup_iff m) hp (run_solution s) hg fuel z).mono fun _ _ h => run_eq_of hg h)

/-- **C135**, runs of any length. -/
theorem steps_units (sh : Nat → Outcome Nat) (fuel : Nat) (z : Fin 9 → Bool) (c : Scale) (m : SolverData) (hp : c.Fits m.params) (hg : c.gasMass = c.bodyMass) (n : Nat)
    (s : Solution) : steps sh fuel z (c.solver m) n (c.solution s) = (steps sh fuel z m n s).map c.solution := by
  induction n generalizing s with
  | zero => rfl
  | succ n ih =>
    unfold steps
    rw [step_units sh fuel z c m s hp hg]
    cases nextSolution sh fuel z m s with
    | ok r => exact ih r
    | throws e => rfl
    | ub => rfl
    | diverges => rfl

/-- **C135**: the time step that the program chooses, for any unit of the density. -/
theorem timestep_units (sh : Nat → Outcome Nat) (c : Scale) (m : SolverData) (s : Solution) (hp : c.Fits m.params) :
    maximumTimestep sh (c.solver m) (c.solution s) = (maximumTimestep sh m s).map fun dt => c.time * dt :=
  of_alike (maximumTimestep_units sh (setup_iff m) hp (run_solution s))

/-- **C135**, before the gas acts on the binary: the density of the disk is only a normalisation.  If a step is made in both units then the gas, the orbit, and what
is recorded of mass, angular momentum and torque are the same in the other units.  The work and the changes of the orbit that are recorded are not. -/
theorem frozen_units (sh : Nat → Outcome Nat) (fuel : Nat) (z : Fin 9 → Bool) (c : Scale) (m : SolverData) (s r r' : Solution) (hp : c.Fits m.params) (dt : ℝ)
    (safe : Bool) (ht : s.time ≤ m.beginLive) (ht' : m.rkOrder ≠ 1 → s.time + dt ≤ m.beginLive) (h : attempt sh fuel z m s dt safe = .ok r)
    (h' : attempt sh fuel z (c.solver m) (c.solution s) (c.time * dt) safe = .ok r') :
    r' = { c.solution r with work := r'.work, orbitAcc := r'.orbitAcc, orbitGrav := r'.orbitGrav } :=
  run_eq ((attempt_units sh (setup_iff m) hp (run_solution s) fuel z rfl safe (.inr ⟨ht, ht'⟩)).both r r' h h')

/-- **C135**, before the gas acts on the binary: on a disk of positive density with a bound binary, steps that are short enough are made in all units. -/
theorem frozen_short_units {sh : Nat → Outcome Nat} (hsh : TotalShift sh) (fuel : Nat) (z : Fin 9 → Bool) (c : Scale) (m : SolverData) (s : Solution) {D N : Nat}
    {f : Index 2 → Nat → Nat → Tri} {b : State} (h1 : MeshData m.conserveLinear m D N) (h2 : StateData m.conserveLinear m N s f b) (hE : Elliptic s.orbit.elements)
    (hr : 0 ≤ m.params.sinkRate) (hk : m.rkOrder = 1) (hp : c.Fits m.params) (ht : s.time ≤ m.beginLive) (safe : Bool) :
    ∃ ε > 0, ∀ dt, 0 ≤ dt → dt ≤ ε → ∃ r r', attempt sh (fuel + 1) z m s dt safe = .ok r
      ∧ attempt sh (fuel + 1) z (c.solver m) (c.solution s) (c.time * dt) safe = .ok r'
      ∧ r' = { c.solution r with work := r'.work, orbitAcc := r'.orbitAcc, orbitGrav := r'.orbitGrav } := by
  obtain ⟨f', h2'⟩ := stateData_units (c := c) h2
  obtain ⟨ε, e0, hε⟩ := short_step hsh h1 h2 hE hr fuel z safe
  obtain ⟨ε', e0', hε'⟩ := short_step hsh (m := c.solver m) (s := c.solution s) (meshData_units (c := c) h1) h2'
    ⟨mul_pos c.length_pos hE.a, mul_pos c.bodyMass_pos hE.M, hE.q, hE.e0, hE.e1⟩ (div_nonneg hr c.time_pos.le) fuel z safe
  refine ⟨min ε (ε' / c.time), lt_min e0 (div_pos e0' c.time_pos), fun dt h0 hdt => ?_⟩
  obtain ⟨r, hr1⟩ := hε dt h0 (hdt.trans (min_le_left _ _))
  obtain ⟨r', hr2⟩ := hε' (c.time * dt) (mul_nonneg c.time_pos.le h0) (by
    rw [mul_comm]
    exact (le_div_iff₀ c.time_pos).1 (hdt.trans (min_le_right _ _)))
  have a1 : attempt sh (fuel + 1) z m s dt safe = .ok r := by
    unfold attempt
    rw [if_pos hk, hr1]
  have a2 : attempt sh (fuel + 1) z (c.solver m) (c.solution s) (c.time * dt) safe = .ok r' := by
    unfold attempt
    rw [if_pos (show (c.solver m).rkOrder = 1 from hk), hr2]
  exact ⟨r, r', a1, a2, frozen_units sh (fuel + 1) z c m s r r' hp dt safe ht (fun h => absurd hk h) a1 a2⟩

/-- The disk of the default run in the examples: any units fit, the gas acts on the binary after the first step. -/
theorem exUnits (lin : Bool) (fuel : Nat) (z : Fin 9 → Bool) : ∃ (m : SolverData) (s : Solution) (f : Index 2 → Nat → Nat → Tri) (b : State) (r : Solution),
    MeshData m.conserveLinear m 4 24 ∧ StateData m.conserveLinear m 24 s f b ∧ Elliptic s.orbit.elements ∧ 0 < m.params.sinkRate ∧ m.rkOrder = 1
      ∧ m.conserveLinear = lin ∧ (∀ c : Scale, c.Fits m.params) ∧ s.time ≤ m.beginLive ∧ nextSolution exShift (fuel + 1) z m s = .ok r := by
  obtain ⟨m, s, f, b, dt, s1, hl, h1, h2, hE, hr, -⟩ := step_exists lin fuel z false
  let m1 : SolverData := { m with beginLive := s.time, rkOrder := 1, fixedDt := true, params := { m.params with alphaCutoff := 0, axisymmetric := false } }
  have h1' : MeshData m1.conserveLinear m1 4 24 := ⟨h1.shaped, h1.blockSize, h1.radius, h1.vertices, h1.centers, h1.areas, h1.buffer, h1.initial⟩
  have h2' : StateData m1.conserveLinear m1 24 s f b :=
    ⟨h2.blocks, h2.density, h2.bodies, ⟨h2.physical.mach, h2.physical.softening, h2.physical.mass1, h2.physical.mass2⟩, h2.sink, h2.ramp, h2.offCenter⟩
  obtain ⟨ε, e0, hε⟩ := short_step exShift_total h1' h2' hE hr.le fuel z false
  obtain ⟨r, hr1⟩ := hε ε e0.le le_rfl
  let m2 : SolverData := { m1 with recommendedStep := ε }
  have h3 : MeshData m2.conserveLinear m2 4 24 := ⟨h1.shaped, h1.blockSize, h1.radius, h1.vertices, h1.centers, h1.areas, h1.buffer, h1.initial⟩
  have h4 : StateData m2.conserveLinear m2 24 s f b :=
    ⟨h2.blocks, h2.density, h2.bodies, ⟨h2.physical.mach, h2.physical.softening, h2.physical.mass1, h2.physical.mass2⟩, h2.sink, h2.ramp, h2.offCenter⟩
  refine ⟨m2, s, f, b, r, h3, h4, hE, hr, rfl, hl, fun c => ⟨.inl le_rfl, .inl rfl⟩, le_rfl, ?_⟩
  have hr2 : advance exShift (fuel + 1) z m2 s ε false = .ok r := hr1
  unfold nextSolution attempt
  rw [if_pos rfl, Outcome.bind_ok, if_pos rfl, hr2]

/-- Lengths in other units than times: one and the same unit of mass for gas and bodies. -/
noncomputable def exSame : Scale := ⟨2, 2, 1 / 2, by norm_num, by norm_num, by norm_num⟩

/-- Only the density of the gas is another. -/
noncomputable def exDense : Scale := ⟨1, 1, 3, by norm_num, by norm_num, by norm_num⟩

example : exSame.gasMass = exSame.bodyMass ∧ exSame.velocity = 1 ∧ exDense.gasMass ≠ exDense.bodyMass := by
  norm_num [exSame, exDense, gasMass, bodyMass, velocity]

/-- Non-vacuity of `step_units` and `steps_units`: a step of the default run in other units. -/
example (lin : Bool) (z : Fin 9 → Bool) : ∃ m s r, exSame.Fits m.params ∧ m.conserveLinear = lin ∧ nextSolution exShift 1 z m s = .ok r
    ∧ nextSolution exShift 1 z (exSame.solver m) (exSame.solution s) = .ok (exSame.solution r)
    ∧ steps exShift 1 z (exSame.solver m) 1 (exSame.solution s) = .ok (exSame.solution r) := by
  obtain ⟨m, s, f, b, r, -, -, -, -, -, hl, hp, -, h⟩ := exUnits lin 0 z
  have hg : exSame.gasMass = exSame.bodyMass := by norm_num [exSame, gasMass, bodyMass]
  refine ⟨m, s, r, hp _, hl, h, ?_, ?_⟩
  · rw [step_units _ _ _ _ _ _ (hp _) hg, h]
    rfl
  · rw [steps_units _ _ _ _ _ (hp _) hg]
    unfold steps
    rw [h]
    rfl

/-- Non-vacuity of `frozen_units` and `frozen_short_units`: three times the density. -/
example (lin : Bool) (z : Fin 9 → Bool) : ∃ (m : SolverData) (s : Solution) (dt : ℝ) (r r' : Solution), m.conserveLinear = lin ∧ 0 < dt ∧ exDense.Fits m.params ∧ s.time ≤ m.beginLive
    ∧ attempt exShift 1 z m s dt false = .ok r ∧ attempt exShift 1 z (exDense.solver m) (exDense.solution s) (exDense.time * dt) false = .ok r' ∧ r'.u = field (tri 3 3) r.u := by
  obtain ⟨m, s, f, b, r, h1, h2, hE, hr, hk, hl, hp, ht, -⟩ := exUnits lin 0 z
  obtain ⟨ε, e0, h⟩ := frozen_short_units exShift_total 0 z exDense m s h1 h2 hE hr.le hk (hp _) ht false
  obtain ⟨r, r', ha, hb, hc⟩ := h ε e0.le le_rfl
  refine ⟨m, s, ε, r, r', hl, e0, hp _, ht, ha, hb, ?_⟩
  rw [hc]
  show field (tri exDense.density (exDense.density * exDense.velocity)) r.u = _
  norm_num [exDense, velocity]

/-! ### The disk -/

/-- **C135**: the mass of the disk in other units. -/
theorem diskMass_units (c : Scale) (m : SolverData) (s : Solution) : diskMass (c.solver m) (c.solution s) = (diskMass m s).map fun M => c.gasMass * M := by
  refine of_alike ?_
  unfold diskMass
  refine ((cons_units (run_solution (c := c) s) _).pair (setup_iff m).areas).bind fun p p' hp => ?_
  refine Alike.map (R := TreeR (times c.gasMass)) (hp.mapM fun q q' hq => ?_) fun t t' ht => ?_
  · refine Alike.bind ((hq.1.map (S := times c.density) fun x x' hx => by rw [hx]; rfl).binaryOp hq.2 (T := times c.gasMass) fun x x' y y' hx hy => hx.mul hy rfl)
      fun A A' hA => ?_
    exact hA.sum (mul_zero _).symm fun x x' y y' hx hy => times.add hx hy
  · exact ht.sum (mul_zero _).symm fun x x' y y' hx hy => times.add hx hy

/-- **C135**: the angular momentum of the disk in other units. -/
theorem diskAngmom_units (c : Scale) (m : SolverData) (s : Solution) :
    diskAngmom (c.solver m) (c.solution s) = (diskAngmom m s).map fun L => c.gasMass * (c.length * c.velocity) * L := by
  refine of_alike ?_
  have hs := run_solution (c := c) s
  have hm := setup_iff (c := c) m
  unfold diskAngmom
  refine Alike.ite Iff.rfl (fun _ _ => ?_) fun _ _ => ?_
  · refine (hs.u.pair hm.centers).bind fun p p' hp => ?_
    refine Alike.bind (R := TreeR (ArrR (times (c.density * c.velocity * c.length)))) (hp.mapM fun q q' hq => hq.1.binaryOp hq.2 fun x x' y y' hx hy => ?_) fun l l' hl => ?_
    · rw [hx, hy]
      unfold angularMomentum times
      ring
    · refine (hl.pair hm.areas).bind fun p p' hp => Alike.map (R := TreeR (times (c.gasMass * (c.length * c.velocity)))) (hp.mapM fun q q' hq => ?_) fun t t' ht => ?_
      · refine (hq.1.binaryOp hq.2 (T := times (c.gasMass * (c.length * c.velocity))) fun x x' y y' hx hy => hx.mul hy (by unfold gasMass; ring)).bind fun A A' hA => ?_
        exact hA.sum (mul_zero _).symm fun x x' y y' hx hy => times.add hx hy
      · exact ht.sum (mul_zero _).symm fun x x' y y' hx hy => times.add hx hy
  · refine (hs.q.pair hm.areas).bind fun p p' hp => Alike.map (R := TreeR (times (c.gasMass * (c.length * c.velocity)))) (hp.mapM fun q q' hq => ?_) fun t t' ht => ?_
    · refine (hq.1.binaryOp hq.2 (T := triTimes c.gasMass (c.gasMass * (c.length * c.velocity))) fun x x' y y' hx hy => hx.mul hy rfl (by unfold gasMass; ring)).bind
        fun A A' hA => ?_
      exact (hA.map (S := times (c.gasMass * (c.length * c.velocity))) fun x x' hx => by rw [hx]; rfl).sum (mul_zero _).symm fun x x' y y' hx hy => times.add hx hy
    · exact ht.sum (mul_zero _).symm fun x x' y y' hx hy => times.add hx hy

/-! ### Options that come with units -/

/-- **C135** does not hold for the cutoff of the viscosity: its width is a third of the unit of length, whatever that is. -/
theorem cutoff_violated : ∃ (c : Scale) (p : Params) (x : ℝ × ℝ) (cs2 : ℝ), c.gasMass = c.bodyMass ∧ p.axisymmetric = false ∧
    nuAt (c.params p) (c.length * x.1, c.length * x.2) (c.velocity ^ 2 * cs2) ≠ (nuAt p x cs2).map fun nu => c.length * c.velocity * nu := by
  refine ⟨exSame, ⟨0, 1, 1, 1, 1, 0, 1, 0, 1, 1, 1, false⟩, (0, 0), 0, by norm_num [exSame, gasMass, bodyMass], rfl, ?_⟩
  have hr : radius ((0 : ℝ), (0 : ℝ)) = 0 := by norm_num [radius]
  have hv : exSame.velocity = 1 := by norm_num [exSame, velocity]
  unfold nuAt nuProfile
  have hL : exSame.length = 2 := rfl
  have h0 : (exSame.length * (0 : ℝ), exSame.length * (0 : ℝ)) = ((0 : ℝ), (0 : ℝ)) := by rw [mul_zero]
  dsimp only [params]
  simp only [h0, hr, hv, hL]
  norm_num [Outcome.map, Outcome.bind]
  intro h
  rw [hr, show (3 : ℝ) * (0 - 2) = -6 by norm_num, Real.tanh_neg] at h
  have : Real.tanh 6 = Real.tanh 3 := by linarith only [h]
  have := Real.tanh_injective this
  norm_num at this

/-- **C135** does not hold for the axisymmetric temperature: it is that around a mass one. -/
theorem temperature_violated : ∃ (c : Scale) (p : Params) (b : State) (x : ℝ × ℝ), c.gasMass = c.bodyMass ∧ p.alphaCutoff = 0 ∧
    cs2At (c.params p) (c.bodies b) (c.length * x.1, c.length * x.2) ≠ (cs2At p b x).map fun k => c.velocity ^ 2 * k := by
  refine ⟨exSame, ⟨0, 1, 1, 1, 1, 0, 1, 0, 0, 1, 1, true⟩, ⟨⟨1, 0, 0, 0, 0⟩, ⟨1, 0, 0, 0, 0⟩⟩, (1, 0), by norm_num [exSame, gasMass, bodyMass], rfl, ?_⟩
  have hv : exSame.velocity = 1 := by norm_num [exSame, velocity]
  have hL : exSame.length = 2 := rfl
  have h4 : Real.sqrt 4 = 2 := by
    rw [show (4 : ℝ) = 2 ^ 2 by norm_num]
    exact Real.sqrt_sq (by norm_num)
  unfold cs2At
  dsimp only [params]
  simp only [hv, hL]
  norm_num [Outcome.map, Outcome.bind, h4]

end Scale

end Verif.Binary
