import Verif.Lemmas.SourceUnits

/-!
# A whole step in other units
-/

namespace Verif.Binary
open Verif Verif.Nd Verif.Tree Iso2d TwoBody Geometry

namespace Scale

variable {c : Scale} (sh : Nat → Outcome Nat) {m m' : SolverData} {s s' : Solution} (hm : c.Setup m m') (hp : c.Fits m.params) (hs : c.Run s s')

/-! ### One step -/

include hm hp hs in
theorem blockUpdate_units (lin : Bool) (b : State) {p0 p0' fx fx' fy fy' : Quad Tri} (h0 : TreeR (ArrR c.primR) p0 p0') (hfx : TreeR (ArrR (c.fluxR lin)) fx fx')
    (hfy : TreeR (ArrR (c.fluxR lin)) fy fy') {dt dt' : ℝ} (hdt : times c.time dt dt') (i : Index 2) :
    AlikeIf (c.gasMass = c.bodyMass) (PairR (ArrR (c.consR lin)) c.TotalsR) (blockUpdate sh lin m s b p0 fx fy dt i)
      (blockUpdate sh lin m' s' (c.bodies b) p0' fx' fy' dt' i) := by
  have hl := c.length_pos
  have ht := c.time_pos
  unfold blockUpdate
  refine (AlikeIf.of (hm.areas.at sh i)).bind fun A A' hA => (AlikeIf.of ((cons_units hs lin).at sh i)).bind fun U U' hU => ?_
  refine (AlikeIf.of (hfx.at sh i)).bind fun Fx Fx' hFx => (AlikeIf.of (hFx.difference 0 (triTimes_linear _ _).sub)).bind fun lx lx' hlx => ?_
  refine (AlikeIf.of (hfy.at sh i)).bind fun Fy Fy' hFy => (AlikeIf.of (hFy.difference 1 (triTimes_linear _ _).sub)).bind fun ly ly' hly => ?_
  refine (sourceTerms_units sh hm hp hs lin b h0 i hdt).bind fun r r' hr => ?_
  refine (AlikeIf.of (hlx.binaryOp hly (T := c.fluxR lin) fun x x' y y' hx hy => hx.add hy)).bind fun L L' hL => ?_
  have hLt : ArrR (triTimes (c.density * c.velocity * c.length * c.time) (c.velocity * c.mom lin * c.length * c.time)) (L.map (·.mul dt)) (L'.map (·.mul dt')) :=
    hL.map fun x x' hx => hx.mul hdt rfl rfl
  have hdiv : ∀ x x' y y', triTimes (c.density * c.velocity * c.length * c.time) (c.velocity * c.mom lin * c.length * c.time) x x' → times (c.length ^ 2) y y' →
      Alike (c.consR lin) (divTri x y) (divTri x' y') := by
    intro x x' y y' hx hy
    unfold divTri
    refine Alike.guard (by rw [hy]; exact scale_eq_zero (pow_pos hl 2)) fun _ _ => Alike.ok (tri_div hx hy ?_ ?_)
    · unfold velocity
      field_simp
    · unfold velocity
      field_simp
  refine (AlikeIf.of (hLt.binaryOpO hA hdiv)).bind fun L L' hL => ?_
  refine (AlikeIf.of (hU.binaryOp hL (T := c.consR lin) fun x x' y y' hx hy => hx.sub hy)).bind fun V V' hV => ?_
  refine (AlikeIf.of (hV.binaryOp hr.1 (T := c.consR lin) fun x x' y y' hx hy => hx.add hy)).bind fun V V' hV => ?_
  exact (AlikeIf.of (hV.evaluate (triTimes_linear _ _).default)).bind fun V V' hV => AlikeIf.ok ⟨hV, hr.2⟩

include hm hp hs in
theorem stepCore_units (fuel : Nat) (z : Fin 9 → Bool) (lin : Bool) {dt dt' : ℝ} (hdt : times c.time dt dt') (safe : Bool) :
    AlikeIf (c.gasMass = c.bodyMass) (fun r r' => TreeR (ArrR (c.consR lin)) r.1 r'.1 ∧ c.TotalsR r.2.1 r'.2.1 ∧ r'.2.2 = c.bodies r.2.2)
      (stepCore sh fuel z lin m s dt safe) (stepCore sh fuel z lin m' s' dt' safe) := by
  unfold stepCore
  refine (AlikeIf.of (stepFluxes_units sh hm hp hs fuel z lin safe)).bind fun r r' hr => ?_
  rw [hr.1.indexes, hr.2.1]
  refine (AlikeIf.mapM (fun i => blockUpdate_units sh hm hp hs lin r.2.1 hr.1 hr.2.2.1 hr.2.2.2 hdt i) _).bind fun t t' ht => AlikeIf.ok ?_
  refine ⟨ht.map fun p p' hp => hp.1, ?_, rfl⟩
  exact (ht.map (S := c.TotalsR) fun p p' hp => hp.2).sum totals_zero fun _ _ _ _ h h' => totals_add h h'

include hm hs in
theorem stepOrbits_units (hg : c.gasMass = c.bodyMass) (b : State) {t t' : Totals} (ht : c.TotalsR t t') :
    Alike (fun e e' => e' = (c.orbit e.1, c.orbit e.2)) (stepOrbits m s b t) (stepOrbits m' s' (c.bodies b) t') := by
  have hM := c.bodyMass_pos
  have acc : ∀ (q : PointMass) (r r' : BodyTotals), c.BodyR r r' → Alike (fun x x' => x' = c.point x) (bodyAcc m q r) (bodyAcc m' (c.point q) r') := by
    intro q r r' hr
    have e1 : (c.point q).mass + r'.mass = c.bodyMass * (q.mass + r.mass) := by
      rw [hr.mass, hg]
      exact (mul_add _ _ _).symm
    unfold bodyAcc
    rw [e1, hm.noAccretionForce]
    refine Alike.guard (scale_eq_zero hM) fun _ _ => Alike.ok (PointMass.ext rfl rfl rfl ?_ ?_)
    · cases m.noAccretionForce with
      | true => exact (rfl : _ = _)
      | false =>
        refine div_of (k := c.bodyMass * c.velocity) ?_ rfl (mul_div_cancel_left₀ _ hM.ne')
        rw [hr.momentumX, hg]
        show c.bodyMass * q.mass * (c.velocity * q.vx) + _ = _
        ring
    · cases m.noAccretionForce with
      | true => exact (rfl : _ = _)
      | false =>
        refine div_of (k := c.bodyMass * c.velocity) ?_ rfl (mul_div_cancel_left₀ _ hM.ne')
        rw [hr.momentumY, hg]
        show c.bodyMass * q.mass * (c.velocity * q.vy) + _ = _
        ring
  have grv : ∀ (q : PointMass) (r r' : BodyTotals), c.BodyR r r' → Alike (fun x x' => x' = c.point x) (bodyGrv q r) (bodyGrv (c.point q) r') := by
    intro q r r' hr
    unfold bodyGrv
    refine Alike.guard (scale_eq_zero hM) fun _ _ => Alike.ok (PointMass.ext rfl rfl rfl ?_ ?_)
    · show c.velocity * q.vx + r'.forceX / (c.bodyMass * q.mass) = c.velocity * (q.vx + r.forceX / q.mass)
      rw [mul_add, div_of (hr.forceX.trans (by rw [hg])) rfl (mul_div_cancel_left₀ c.velocity hM.ne')]
    · show c.velocity * q.vy + r'.forceY / (c.bodyMass * q.mass) = c.velocity * (q.vy + r.forceY / q.mass)
      rw [mul_add, div_of (hr.forceY.trans (by rw [hg])) rfl (mul_div_cancel_left₀ c.velocity hM.ne')]
  unfold stepOrbits
  refine (acc b.body1 _ _ (ht.on 0)).bind fun a1 a1' h1 => (acc b.body2 _ _ (ht.on 1)).bind fun a2 a2' h2 => ?_
  refine (grv b.body1 _ _ (ht.on 0)).bind fun g1 g1' h3 => (grv b.body2 _ _ (ht.on 1)).bind fun g2 g2' h4 => ?_
  subst h1 h2 h3 h4
  rw [hs.time]
  refine (computeOrbitalElements_units ⟨a1, a2⟩ s.time).bind fun e e' he => (computeOrbitalElements_units ⟨g1, g2⟩ s.time).bind fun f f' hf => Alike.ok ?_
  rw [he, hf]

theorem emptyTree_units (k l : ℝ) : TreeR (ArrR (triTimes k l)) emptyTree emptyTree := ⟨rfl, fun _ => .ub⟩

include hm in
theorem validate_units (lin : Bool) (hs : c.Run s s') : Alike c.Run (validate sh lin m s) (validate sh lin m' s') := by
  unfold validate
  rw [(cons_units hs lin).indexes]
  refine Alike.bind (R := TreeR Eq) ((TreeR.refl _).mapM ?_) fun f f' hf => ?_
  · rintro i _ rfl
    unfold anyNegative
    refine (hm.centers.at sh i).bind fun X X' hX => ((cons_units hs lin).at sh i).bind fun U U' hU => (hX.zip hU).bind fun Z Z' hZ => hZ.elements.map fun l l' hl => ?_
    induction hl with
    | nil => rfl
    | cons hx _ ih =>
      rw [List.any_cons, List.any_cons, ih]
      congr 1
      refine decide_eq_decide.2 ?_
      rw [hx.2]
      exact scale_neg c.density_pos
  · rw [hf.eq]
    exact Alike.guardThrows Iff.rfl fun _ _ => Alike.ok hs

include hm hp hs in
theorem advance_units (fuel : Nat) (z : Fin 9 → Bool) {dt dt' : ℝ} (hdt : times c.time dt dt') (safe : Bool)
    (hlive : c.gasMass = c.bodyMass ∨ s.time ≤ m.beginLive) :
    AlikeIf (c.gasMass = c.bodyMass) (fun r r' => c.Run r r' ∧ r.time = s.time + dt) (advance sh fuel z m s dt safe) (advance sh fuel z m' s' dt' safe) := by
  unfold advance
  rw [hm.conserveLinear]
  generalize m.conserveLinear = lin
  unfold advanceMode
  refine (stepCore_units sh hm hp hs fuel z lin hdt safe).bind fun r r' hr => ?_
  rw [hr.2.2]
  refine (AlikeIf.given fun hg => stepOrbits_units hm hs hg r.2.2 hr.2.1).bind fun E E' hE => ?_
  refine (AlikeIf.given fun hg => by rw [hs.orbit, hE hg]; exact diff_units s.orbit E.1).bind fun d d' hd => ?_
  refine (AlikeIf.given fun hg => by rw [hs.orbit, hE hg]; exact diff_units s.orbit E.2).bind fun e e' he => ?_
  have hv : ∀ {a a' : Solution} {τ : ℝ}, a.time = τ → c.Run a a' → AlikeIf (c.gasMass = c.bodyMass) (fun r r' => c.Run r r' ∧ r.time = τ) (validate sh lin m a) (validate sh lin m' a') := by
    intro a a' τ hτ ha
    subst hτ
    have hal := validate_units sh hm lin ha
    have htime : ∀ r, validate sh lin m a = .ok r → r.time = a.time := by
      intro r h
      unfold validate at h
      obtain ⟨f, -, h⟩ := Outcome.bind_eq_ok.1 h
      split at h
      · cases h
      · cases h
        rfl
    refine AlikeIf.of ?_
    generalize validate sh lin m a = o at hal htime
    generalize validate sh lin m' a' = o' at hal
    cases hal with
    | ok h => exact .ok ⟨h, htime _ rfl⟩
    | throws e => exact .throws e
    | ub => exact .ub
    | diverges => exact .diverges
  refine hv rfl ?_
  have ht := hr.2.1
  refine ⟨?_, ?_, ?_, ?_, ?_, ?_, ?_, ?_, ?_, ?_, ?_, ?_, ?_⟩
  · exact times.add hs.time hdt
  · show s'.iteration + 1 = s.iteration + 1
    rw [hs.iteration]
  · cases lin with
    | true => exact hr.1
    | false => exact emptyTree_units _ _
  · cases lin with
    | true => exact emptyTree_units _ _
    | false => exact hr.1
  · exact fun k => times.add (hs.massAccreted k) (ht.on k).mass
  · exact fun k => times.add (hs.angmomAccreted k) (ht.on k).angmom
  · exact fun k => times.add (hs.torque k) (ht.on k).torque
  · exact times.add hs.massEjected ht.massEjected
  · exact times.add hs.angmomEjected ht.angmomEjected
  · dsimp only
    rw [hs.orbit, hs.time, hm.beginLive]
    by_cases hg : c.gasMass = c.bodyMass
    · rw [hd hg, he hg, hdt, diffCm_units, orbit_add, orbit_add]
      have hi : (if c.time * s.time > c.time * m.beginLive then (1 : ℝ) else 0) = if s.time > m.beginLive then 1 else 0 :=
        ite_related (R := Eq) (scale_lt c.time_pos).symm rfl rfl
      rw [hi, orbit_scale, orbit_add]
    · have h0 := hlive.resolve_left hg
      have hz : ∀ a b : FullElements, a.add (b.scale 0) = a := by
        intro a b
        refine FullElements.ext ?_ ?_ ?_ ?_ ?_ ?_ (Elements.ext ?_ ?_ ?_ ?_)
        all_goals
          show _ + _ * (0 : ℝ) = _
          rw [mul_zero, add_zero]
      rw [if_neg (not_lt.2 h0), if_neg fun h : c.time * s.time > c.time * m.beginLive => not_lt.2 h0 ((scale_lt c.time_pos).2 h), hz, hz]
  · exact fun hg k => times.add (hs.work hg k) ((ht.on k).work hg)
  · intro hg
    dsimp only
    rw [hs.orbitAcc hg, hd hg, orbit_add]
  · intro hg
    dsimp only
    rw [hs.orbitGrav hg, he hg, orbit_add]

theorem addTrees_units {k l : ℝ} {t t' r r' : Quad Tri} (h : TreeR (ArrR (triTimes k l)) t t') (h' : TreeR (ArrR (triTimes k l)) r r') :
    Alike (TreeR (ArrR (triTimes k l))) (addTrees t r) (addTrees t' r') := by
  unfold addTrees
  refine (h.pair h').bind fun p p' hp => hp.mapM fun q q' hq => ?_
  exact (hq.1.binaryOp hq.2 (T := triTimes k l) fun x x' y y' hx hy => hx.add hy).bind fun A A' hA => hA.evaluate (triTimes_linear _ _).default

theorem scaleTree_units {k l : ℝ} {t t' : Quad Tri} (h : TreeR (ArrR (triTimes k l)) t t') (r : ℝ) : Alike (TreeR (ArrR (triTimes k l))) (scaleTree t r) (scaleTree t' r) := by
  unfold scaleTree
  exact h.mapM fun A A' hA => (hA.map fun x x' hx => hx.mul times.rfl (mul_one _).symm (mul_one _).symm).evaluate (triTimes_linear k l).default

theorem solution_add {r r' : Solution} (hs : c.Run s s') (hr : c.Run r r') : Alike c.Run (s.add r) (s'.add r') := by
  unfold Solution.add
  refine (addTrees_units hs.u hr.u).bind fun u u' hu => (addTrees_units hs.q hr.q).bind fun q q' hq => Alike.ok ?_
  refine ⟨times.add hs.time hr.time, ?_, hu, hq, fun k => times.add (hs.massAccreted k) (hr.massAccreted k), fun k => times.add (hs.angmomAccreted k) (hr.angmomAccreted k),
    fun k => times.add (hs.torque k) (hr.torque k), times.add hs.massEjected hr.massEjected, times.add hs.angmomEjected hr.angmomEjected, ?_,
    fun hg k => times.add (hs.work hg k) (hr.work hg k), fun hg => ?_, fun hg => ?_⟩
  · show s'.iteration + r'.iteration = s.iteration + r.iteration
    rw [hs.iteration, hr.iteration]
  · show s'.orbit.add r'.orbit = _
    rw [hs.orbit, hr.orbit, orbit_add]
  · show s'.orbitAcc.add r'.orbitAcc = _
    rw [hs.orbitAcc hg, hr.orbitAcc hg, orbit_add]
  · show s'.orbitGrav.add r'.orbitGrav = _
    rw [hs.orbitGrav hg, hr.orbitGrav hg, orbit_add]

theorem solution_scale (hs : c.Run s s') (k : ℚ) : Alike c.Run (s.scale k) (s'.scale k) := by
  unfold Solution.scale
  refine (scaleTree_units hs.u _).bind fun u u' hu => (scaleTree_units hs.q _).bind fun q q' hq => Alike.ok ?_
  have key : ∀ {j x x' : ℝ}, x' = j * x → x' * (k : ℝ) = j * (x * k) := by
    intro j x x' h
    rw [h, mul_assoc]
  refine ⟨key hs.time, ?_, hu, hq, fun j => key (hs.massAccreted j), fun j => key (hs.angmomAccreted j), fun j => key (hs.torque j), key hs.massEjected,
    key hs.angmomEjected, ?_, fun hg j => key (hs.work hg j), fun hg => ?_, fun hg => ?_⟩
  · show s'.iteration * k = s.iteration * k
    rw [hs.iteration]
  · show s'.orbit.scale k = _
    rw [hs.orbit, orbit_scale]
  · show s'.orbitAcc.scale k = _
    rw [hs.orbitAcc hg, orbit_scale]
  · show s'.orbitGrav.scale k = _
    rw [hs.orbitGrav hg, orbit_scale]

include hm hp hs in
theorem attempt_units (fuel : Nat) (z : Fin 9 → Bool) {dt dt' : ℝ} (hdt : times c.time dt dt') (safe : Bool)
    (hlive : c.gasMass = c.bodyMass ∨ (s.time ≤ m.beginLive ∧ (m.rkOrder ≠ 1 → s.time + dt ≤ m.beginLive))) :
    AlikeIf (c.gasMass = c.bodyMass) c.Run (attempt sh fuel z m s dt safe) (attempt sh fuel z m' s' dt' safe) := by
  have h1 := advance_units sh hm hp hs fuel z hdt safe (hlive.imp id And.left)
  unfold attempt
  rw [hm.rkOrder]
  by_cases hk1 : m.rkOrder = 1
  · rw [if_pos hk1, if_pos hk1]
    exact ⟨fun x x' hx hx' => (h1.both x x' hx hx').1, fun hg => (h1.alike hg).mono fun _ _ h => h.1⟩
  · rw [if_neg hk1, if_neg hk1]
    by_cases hk2 : m.rkOrder = 2
    · rw [if_pos hk2, if_pos hk2]
      refine h1.bind fun s1 s1' hs1 => ?_
      refine (advance_units sh hm hp hs1.1 fuel z hdt safe (hlive.imp id fun h => by rw [hs1.2]; exact h.2 hk1)).bind fun s2 s2' hs2 => ?_
      exact (AlikeIf.of (solution_scale hs _)).bind fun a a' ha => (AlikeIf.of (solution_scale hs2.1 _)).bind fun b b' hb => AlikeIf.of (solution_add ha hb)
    · rw [if_neg hk2, if_neg hk2]
      exact AlikeIf.of (.throws _)

include hm hp hs in
theorem maximumTimestep_units : Alike (times c.time) (maximumTimestep sh m s) (maximumTimestep sh m' s') := by
  have hv := c.velocity_pos
  unfold maximumTimestep
  rw [hm.conserveLinear]
  refine (recoverPrimitive_units hm hs _).bind fun p0 p0' h0 => ?_
  rw [hs.orbit, hs.time]
  refine (fullTwoBodyState_units s.orbit s.time).bind ?_
  rintro b _ rfl
  rw [hs.u.indexes]
  refine Alike.map (R := TreeR (times c.time)) ((TreeR.refl _).mapM ?_) fun t t' ht => ht.min ?_
  · rintro i _ rfl
    unfold blockTimestep
    refine (hm.centers.at sh i).bind fun X X' hX => (h0.at sh i).bind fun P P' hP => (blockSpacing_units sh hm i).bind fun h h' hh => ?_
    refine Alike.bind (R := ArrR (times c.velocity)) (hP.binaryOpO hX fun p p' x x' hpp hx => ?_) fun W W' hW => ?_
    · rw [hm.params]
      refine (cs2At_units hp b hx).bind fun k k' hk => Alike.guard (by rw [hk]; exact scale_neg (pow_pos hv 2)) fun _ _ => Alike.ok ?_
      have e1 : p' = c.gas.planePrimitive p := hpp
      have e3 : k' = c.gas.velocity ^ 2 * k := hk
      rw [e1, e3]
      unfold maxWavespeed
      have hw := fun n => (Frame.iso2d_units c.gas p p p n k k).2.2.1
      rw [hw, hw]
      show max (max |c.velocity * _| |c.velocity * _|) (max |c.velocity * _| |c.velocity * _|) = c.velocity * _
      rw [abs_mul, abs_mul, abs_mul, abs_mul, abs_of_pos hv, mul_max_of_nonneg _ _ hv.le, mul_max_of_nonneg _ _ hv.le, mul_max_of_nonneg _ _ hv.le]
    · refine (hW.minBy (mul_zero _).symm ?_).bind fun w w' hw => Alike.guard (by rw [hw]; exact scale_eq_zero hv) fun _ _ => Alike.ok ?_
      · rintro x _ y _ rfl rfl
        exact decide_eq_decide.2 (scale_lt hv)
      · refine div_of hh hw ?_
        rw [length_eq]
        field_simp
  · rintro x _ y _ rfl rfl
    exact scale_lt c.time_pos

include hm hp hs in
theorem nextSolution_units (hg : c.gasMass = c.bodyMass) (fuel : Nat) (z : Fin 9 → Bool) : Alike c.Run (nextSolution sh fuel z m s) (nextSolution sh fuel z m' s') := by
  unfold nextSolution
  refine Alike.bind (R := times c.time) ?_ fun dt dt' hdt => ?_
  · rw [hm.fixedDt]
    refine Alike.ite Iff.rfl (fun _ _ => Alike.ok hm.recommendedStep) fun _ _ => (maximumTimestep_units sh hm hp hs).map fun x x' hx => ?_
    rw [hm.cfl, hx]
    show m.cfl * (c.time * x) = c.time * (m.cfl * x)
    ring
  · have h1 := (attempt_units sh hm hp hs fuel z hdt false (.inl hg)).alike hg
    have h2 := (attempt_units sh hm hp hs fuel z (dt := dt * (1 / 10)) (dt' := dt' * (1 / 10)) (by rw [hdt]; exact mul_assoc _ _ _) true (.inl hg)).alike hg
    generalize attempt sh fuel z m s dt false = o at h1
    generalize attempt sh fuel z m' s' dt' false = o' at h1
    cases h1 with
    | ok h => exact .ok h
    | throws e => exact h2
    | ub => exact .ub
    | diverges => exact .diverges

/-! ### The relations and the functions of the statement -/

theorem arr_map {α : Type} (f : α → α) {n : Nat} (A A' : Arr n α) : ArrR (fun x x' => x' = f x) A A' ↔ A' = A.map f := by
  constructor
  · rintro ⟨h1, h2⟩
    obtain ⟨sh, g⟩ := A
    obtain ⟨sh', g'⟩ := A'
    dsimp only at h1 h2
    subst h1
    show (⟨sh, g'⟩ : Arr n α) = ⟨sh, fun i => (g i).map f⟩
    congr 1
    funext i
    have := h2 i
    generalize g i = o at this
    generalize g' i = o' at this
    cases this with
    | ok h => rw [h]; rfl
    | throws e => rfl
    | ub => rfl
    | diverges => rfl
  · rintro rfl
    exact ⟨rfl, fun i => Alike.of_eq rfl⟩

theorem field_map {α : Type} (f : α → α) (t t' : Quad α) : TreeR (ArrR fun x x' => x' = f x) t t' ↔ t' = field f t := by
  constructor
  · intro h
    refine TreeR.rec' (P := fun t t' => t' = field f t) (fun A A' hA => ?_) (fun d d' _ ih => ?_) h
    · exact congrArg Tree.Tree.leaf ((arr_map f A A').1 hA)
    · show Tree.Tree.node d' = Tree.Tree.node fun j => field f (d j)
      exact congrArg Tree.Tree.node (funext ih)
  · rintro rfl
    unfold field
    induction t with
    | leaf A => exact (arr_map f A _).2 rfl
    | node d ih => exact ih

theorem setup_iff (m : SolverData) : c.Setup m (c.solver m) :=
  ⟨rfl, rfl, rfl, rfl, rfl, rfl, rfl, rfl, rfl, (field_map _ _ _).2 rfl, (field_map _ _ _).2 rfl, (field_map _ _ _).2 rfl, (field_map (tri _ _) _ _).2 rfl,
    (field_map (tri _ _) _ _).2 rfl, (field_map _ _ _).2 rfl⟩

theorem run_solution (s : Solution) : c.Run s (c.solution s) :=
  ⟨rfl, rfl, (field_map (tri _ _) _ _).2 rfl, (field_map (tri _ _) _ _).2 rfl, fun _ => rfl, fun _ => rfl, fun _ => rfl, rfl, rfl, rfl, fun _ _ => rfl, fun _ => rfl, fun _ => rfl⟩

theorem run_eq (hs : c.Run s s') : s' = { c.solution s with work := s'.work, orbitAcc := s'.orbitAcc, orbitGrav := s'.orbitGrav } := by
  obtain ⟨h1, h2, h3, h4, h5, h6, h7, h8, h9, h10, -, -, -⟩ := hs
  have h3 := (field_map (tri _ _) _ _).1 h3
  have h4 := (field_map (tri _ _) _ _).1 h4
  have h5 := funext h5
  have h6 := funext h6
  have h7 := funext h7
  cases s'
  dsimp only at *
  subst h1 h2 h3 h4 h5 h6 h7 h8 h9 h10
  rfl

theorem run_eq_of (hg : c.gasMass = c.bodyMass) (hs : c.Run s s') : s' = c.solution s := by
  have h := run_eq hs
  rw [funext (hs.work hg), hs.orbitAcc hg, hs.orbitGrav hg] at h
  exact h

theorem of_alike {α : Type} {f : α → α} {o o' : Outcome α} (h : Alike (fun x x' => x' = f x) o o') : o' = o.map f := by
  cases h with
  | ok h => rw [h]; rfl
  | throws e => rfl
  | ub => rfl
  | diverges => rfl

end Scale

end Verif.Binary
