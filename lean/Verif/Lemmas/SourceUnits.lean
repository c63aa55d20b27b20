import Verif.Lemmas.StepUnits

/-!
# The source terms and the records of the binary program in other units
-/

namespace Verif.Binary
open Verif Verif.Nd Verif.Tree Iso2d TwoBody Geometry

namespace Scale

variable {c : Scale} (sh : Nat → Outcome Nat) {m m' : SolverData} {s s' : Solution} (hm : c.Setup m m') (hp : c.Fits m.params) (hs : c.Run s s')

theorem mass_times {k l : ℝ} {u u' : Tri} (h : triTimes k l u u') : times k u.a u'.a := by rw [h]; rfl

theorem pair_default (k : ℝ) : pairTimes k default default := Prod.ext (mul_zero _).symm (mul_zero _).symm

include hm in
theorem gravForce_units (b : PointMass) {X X' : Arr 2 (ℝ × ℝ)} (hX : ArrR (pairTimes c.length) X X') {A A' : Arr 2 ℝ} (hA : ArrR (times c.density) A A') :
    Alike (ArrR (pairTimes (c.density * c.velocity / c.time))) (gravForce m b X A) (gravForce m' (c.point b) X' A') := by
  unfold gravForce
  rw [hm.params]
  refine Alike.bind (R := ArrR (pairTimes (c.density * c.velocity / c.time))) ?_ fun A A' hA => hA.evaluate (pair_default _)
  refine (hX.mapO fun x x' hx => gravVdot_units m.params b hx).binaryOp hA ?_
  rintro x _ y _ rfl rfl
  refine Prod.ext ?_ ?_
  · show c.velocity / c.time * x.1 * (c.density * y) = c.density * c.velocity / c.time * (x.1 * y)
    ring
  · show c.velocity / c.time * x.2 * (c.density * y) = c.density * c.velocity / c.time * (x.2 * y)
    ring

theorem gravSource_units (lin : Bool) {X X' : Arr 2 (ℝ × ℝ)} (hX : ArrR (pairTimes c.length) X X') {F F' : Arr 2 (ℝ × ℝ)}
    (hF : ArrR (pairTimes (c.density * c.velocity / c.time)) F F') {dt dt' : ℝ} (hdt : times c.time dt dt') :
    Alike (ArrR (c.consR lin)) (gravSource lin X F dt) (gravSource lin X' F' dt') := by
  have ht := c.time_pos
  unfold gravSource
  have h : ∀ x x' f f', pairTimes c.length x x' → pairTimes (c.density * c.velocity / c.time) f f' →
      triTimes (c.density / c.time) (c.mom lin / c.time) (if lin then forceToSourceU f else forceToSourceQ x f) (if lin then forceToSourceU f' else forceToSourceQ x' f') := by
    rintro x _ f _ rfl rfl
    cases lin with
    | true => exact Tri.ext (mul_zero _).symm rfl rfl
    | false =>
      refine Tri.ext (mul_zero _).symm ?_ ?_
      · show c.length * x.1 * (c.density * c.velocity / c.time * f.1) + c.length * x.2 * (c.density * c.velocity / c.time * f.2)
          = c.density * c.length * c.velocity / c.time * (x.1 * f.1 + x.2 * f.2)
        ring
      · show c.length * x.1 * (c.density * c.velocity / c.time * f.2) - c.length * x.2 * (c.density * c.velocity / c.time * f.1)
          = c.density * c.length * c.velocity / c.time * (x.1 * f.2 - x.2 * f.1)
        ring
  refine (hX.binaryOp hF h).bind fun A A' hA => ?_
  exact (hA.map fun x x' hx => hx.mul hdt (by field_simp) (by field_simp)).evaluate (triTimes_linear c.density (c.mom lin)).default

include hm in
theorem sinkSource_units (lin : Bool) (b : PointMass) {X X' : Arr 2 (ℝ × ℝ)} (hX : ArrR (pairTimes c.length) X X') {U U' : Arr 2 Tri} (hU : ArrR (c.consR lin) U U')
    {dt dt' : ℝ} (hdt : times c.time dt dt') : Alike (ArrR (c.consR lin)) (sinkSource m b X U dt) (sinkSource m' (c.point b) X' U' dt') := by
  have ht := c.time_pos
  unfold sinkSource
  rw [hm.params]
  have hneg : ArrR (c.consR lin) (U.map Tri.neg) (U'.map Tri.neg) := hU.map fun x x' hx => hx.neg
  refine (hneg.binaryOp (hX.mapO fun x x' hx => sinkRate_units m.params b hx) (T := triTimes (c.density / c.time) (c.mom lin / c.time)) fun x x' y y' hx hy =>
    hx.mul hy (div_eq_mul_inv _ _) (div_eq_mul_inv _ _)).bind fun A A' hA => ?_
  exact (hA.map fun x x' hx => hx.mul hdt (by field_simp) (by field_simp)).evaluate (triTimes_linear c.density (c.mom lin)).default

theorem bufferSource_units (lin : Bool) {I I' U U' : Arr 2 Tri} (hI : ArrR (c.consR lin) I I') (hU : ArrR (c.consR lin) U U') {B B' : Arr 2 ℝ}
    (hB : ArrR (times c.time⁻¹) B B') {dt dt' : ℝ} (hdt : times c.time dt dt') : Alike (ArrR (c.consR lin)) (bufferSource I U B dt) (bufferSource I' U' B' dt') := by
  have ht := c.time_pos
  unfold bufferSource
  refine (hI.binaryOp hU (T := c.consR lin) fun x x' y y' hx hy => hx.sub hy).bind fun A A' hA => ?_
  refine (hA.binaryOp hB (T := triTimes (c.density / c.time) (c.mom lin / c.time)) fun x x' y y' hx hy =>
    hx.mul hy (div_eq_mul_inv _ _) (div_eq_mul_inv _ _)).bind fun A A' hA => ?_
  exact (hA.map fun x x' hx => hx.mul hdt (by field_simp) (by field_simp)).evaluate (triTimes_linear c.density (c.mom lin)).default

theorem floorCell_units (lin : Bool) (p : Params) {u u' : Tri} (hu : c.consR lin u u') :
    c.consR lin (floorCell p.densityFloor u) (floorCell (c.params p).densityFloor u') := by
  unfold floorCell
  refine (hu.mul times.rfl (mul_one _).symm (mul_one _).symm).mul (j := 1) ?_ (mul_one _).symm (mul_one _).symm
  have : u'.a < (c.params p).densityFloor ↔ u.a < p.densityFloor := by
    rw [hu]
    exact (scale_lt c.density_pos).symm
  show _ = 1 * _
  rw [one_mul]
  exact ite_related (R := Eq) this rfl rfl

include hm hp in
theorem geomCell_units (b : State) {dt dt' : ℝ} (hdt : times c.time dt dt') {u u' : Tri} (hu : c.primR u u') {x x' : ℝ × ℝ} (hx : pairTimes c.length x x') :
    Alike (c.consR false) (geomCell m b dt u x) (geomCell m' (c.bodies b) dt' u' x') := by
  have hl := c.length_pos
  unfold geomCell
  dsimp only
  rw [hm.params]
  have hg : (c.params m.params).gstSuppr * (c.params m.params).gstSuppr = c.length ^ 2 * (m.params.gstSuppr * m.params.gstSuppr) := by
    show c.length * m.params.gstSuppr * (c.length * m.params.gstSuppr) = _
    ring
  have hr : -(x'.1 * x'.1 + x'.2 * x'.2) = c.length ^ 2 * -(x.1 * x.1 + x.2 * x.2) := by
    rw [hx]
    ring
  rw [hg, hr, mul_div_mul_left _ _ (pow_pos hl 2).ne']
  refine Alike.guard (scale_eq_zero (pow_pos hl 2)) fun _ _ => (cs2At_units hp b hx).bind fun k k' hk => Alike.ok ?_
  have h1 : triTimes c.density (c.density * c.velocity ^ 2) (sourceAngmom u k) (sourceAngmom u' k') := by
    rw [hu, hk]
    refine Tri.ext (mul_zero _).symm ?_ (mul_zero _).symm
    show (1 / 2 * (c.density * u.a) * (c.velocity * u.b * (c.velocity * u.b) + c.velocity * u.c * (c.velocity * u.c)) + c.density * u.a * (c.velocity ^ 2 * k)) * 2
      = c.density * c.velocity ^ 2 * ((1 / 2 * u.a * (u.b * u.b + u.c * u.c) + u.a * k) * 2)
    ring
  have h2 := (h1.mul (times.rfl (x := 1 - Real.exp (-(x.1 * x.1 + x.2 * x.2) / (m.params.gstSuppr * m.params.gstSuppr)))) (mul_one _).symm (mul_one _).symm).mul hdt
    (rfl) (rfl)
  rw [h2]
  refine Tri.ext ?_ ?_ ?_
  · show c.density * c.time * (0 * _ * _) = c.density * (0 * _ * _)
    ring
  · show c.density * c.velocity ^ 2 * c.time * _ = c.density * c.length * c.velocity * _
    rw [length_eq]
    ring
  · show c.density * c.velocity ^ 2 * c.time * (0 * _ * _) = c.density * c.length * c.velocity * (0 * _ * _)
    ring

theorem integral_units {k j : ℝ} {F F' A A' : Arr 2 ℝ} (hF : ArrR (times k) F F') (hA : ArrR (times (c.length ^ 2)) A A') (hj : j = k * c.length ^ 2) :
    Alike (times j) (integral F A) (integral F' A') := by
  unfold integral
  refine (hF.binaryOp hA (T := times j) fun x x' y y' hx hy => hx.mul hy hj).bind fun A A' hA => ?_
  exact hA.sum (mul_zero _).symm fun x x' y y' hx hy => hx.add hy

theorem angmomDensity_units (lin : Bool) {U U' : Arr 2 Tri} (hU : ArrR (c.consR lin) U U') {X X' : Arr 2 (ℝ × ℝ)} (hX : ArrR (pairTimes c.length) X X') :
    Alike (ArrR (times (c.density * (c.length * c.velocity)))) (angmomDensity lin U X) (angmomDensity lin U' X') := by
  unfold angmomDensity
  cases lin with
  | true =>
    rw [if_pos rfl, if_pos rfl]
    refine hU.binaryOp hX ?_
    rintro u _ x _ rfl rfl
    show c.length * x.1 * (c.density * c.velocity * u.c) - c.length * x.2 * (c.density * c.velocity * u.b)
      = c.density * (c.length * c.velocity) * (x.1 * u.c - x.2 * u.b)
    ring
  | false =>
    refine Alike.ok (hU.map ?_)
    rintro u _ rfl
    show c.density * c.length * c.velocity * u.c = c.density * (c.length * c.velocity) * u.c
    ring

theorem momentumDensity_units (lin : Bool) {U U' : Arr 2 Tri} (hU : ArrR (c.consR lin) U U') {X X' : Arr 2 (ℝ × ℝ)} (hX : ArrR (pairTimes c.length) X X') :
    Alike (ArrR (pairTimes (c.density * c.velocity))) (momentumDensity lin U X) (momentumDensity lin U' X') := by
  have hl := c.length_pos
  unfold momentumDensity
  cases lin with
  | true =>
    rw [if_pos rfl, if_pos rfl]
    refine Alike.ok (hU.map ?_)
    rintro u _ rfl
    exact (rfl : _ = _)
  | false =>
    rw [if_neg Bool.noConfusion, if_neg Bool.noConfusion]
    refine (hU.binaryOpO hX ?_).bind fun A A' hA => hA.evaluate (pair_default _)
    rintro u _ x _ rfl rfl
    have hr : c.length * x.1 * (c.length * x.1) + c.length * x.2 * (c.length * x.2) = c.length ^ 2 * (x.1 * x.1 + x.2 * x.2) := by ring
    unfold angmomToConserved
    dsimp only
    rw [hr]
    refine Alike.guard (scale_eq_zero (pow_pos hl 2)) fun _ _ => Alike.ok (Prod.ext ?_ ?_)
    · exact div_of (k := c.density * c.length * c.velocity * c.length)
        (by show c.density * c.length * c.velocity * u.b * (c.length * x.1) - c.density * c.length * c.velocity * u.c * (c.length * x.2) = _; ring) rfl (by field_simp)
    · exact div_of (k := c.density * c.length * c.velocity * c.length)
        (by show c.density * c.length * c.velocity * u.b * (c.length * x.2) + c.density * c.length * c.velocity * u.c * (c.length * x.1) = _; ring) rfl (by field_simp)

theorem workOn_units (hg : c.gasMass = c.bodyMass) (lin : Bool) (b : PointMass) {u u' : Tri} (hu : triTimes c.gasMass (c.mom lin * c.length ^ 2) u u') :
    Alike (times (c.gasMass * c.velocity ^ 2)) (workOn lin b u) (workOn lin (c.point b) u') := by
  have hM := c.bodyMass_pos
  unfold workOn
  cases lin with
  | false => exact Alike.ok (mul_zero _).symm
  | true =>
    rw [if_pos rfl, if_pos rfl]
    have e1 : (c.point b).mass + u'.a = c.bodyMass * (b.mass + u.a) := by
      rw [hu, hg]
      exact (mul_add _ _ _).symm
    have hmom : c.mom true * c.length ^ 2 = c.bodyMass * c.velocity := by
      rw [← hg]
      show c.density * c.velocity * c.length ^ 2 = c.density * c.length ^ 2 * c.velocity
      ring
    have e2 : (c.point b).vx * (c.point b).mass + u'.b = c.bodyMass * c.velocity * (b.vx * b.mass + u.b) := by
      rw [hu, hmom]
      show c.velocity * b.vx * (c.bodyMass * b.mass) + c.bodyMass * c.velocity * u.b = _
      ring
    have e3 : (c.point b).vy * (c.point b).mass + u'.c = c.bodyMass * c.velocity * (b.vy * b.mass + u.c) := by
      rw [hu, hmom]
      show c.velocity * b.vy * (c.bodyMass * b.mass) + c.bodyMass * c.velocity * u.c = _
      ring
    dsimp only
    rw [e1, e2, e3]
    refine Alike.guard (or_congr (scale_eq_zero hM) (scale_eq_zero hM)) fun _ _ => Alike.ok ?_
    rw [hg]
    have f1 : (c.bodyMass * c.velocity * (b.vx * b.mass + u.b) * (c.bodyMass * c.velocity * (b.vx * b.mass + u.b))
        + c.bodyMass * c.velocity * (b.vy * b.mass + u.c) * (c.bodyMass * c.velocity * (b.vy * b.mass + u.c))) / (c.bodyMass * (b.mass + u.a))
        = c.bodyMass * c.velocity ^ 2 * (((b.vx * b.mass + u.b) * (b.vx * b.mass + u.b) + (b.vy * b.mass + u.c) * (b.vy * b.mass + u.c)) / (b.mass + u.a)) :=
      div_of (k := c.bodyMass ^ 2 * c.velocity ^ 2) (by ring) rfl (by field_simp)
    have f2 : ((c.point b).vx * (c.point b).mass * ((c.point b).vx * (c.point b).mass) + (c.point b).vy * (c.point b).mass * ((c.point b).vy * (c.point b).mass)) / (c.point b).mass
        = c.bodyMass * c.velocity ^ 2 * ((b.vx * b.mass * (b.vx * b.mass) + b.vy * b.mass * (b.vy * b.mass)) / b.mass) :=
      div_of (k := c.bodyMass ^ 2 * c.velocity ^ 2) (by
        show c.velocity * b.vx * (c.bodyMass * b.mass) * (c.velocity * b.vx * (c.bodyMass * b.mass))
          + c.velocity * b.vy * (c.bodyMass * b.mass) * (c.velocity * b.vy * (c.bodyMass * b.mass)) = _
        ring) rfl (by field_simp)
    rw [f1, f2]
    show _ = c.bodyMass * c.velocity ^ 2 * _
    ring

/-- What is recorded for a body. -/
structure BodyR (c : Scale) (t t' : BodyTotals) : Prop where
  mass : t'.mass = c.gasMass * t.mass
  angmom : t'.angmom = c.gasMass * (c.length * c.velocity) * t.angmom
  torque : t'.torque = c.gasMass * (c.length * c.velocity) * t.torque
  momentumX : t'.momentumX = c.gasMass * c.velocity * t.momentumX
  momentumY : t'.momentumY = c.gasMass * c.velocity * t.momentumY
  forceX : t'.forceX = c.gasMass * c.velocity * t.forceX
  forceY : t'.forceY = c.gasMass * c.velocity * t.forceY
  work : c.gasMass = c.bodyMass → t'.work = c.gasMass * c.velocity ^ 2 * t.work

/-- What is recorded in a step. -/
structure TotalsR (c : Scale) (t t' : Totals) : Prop where
  on : ∀ k, c.BodyR (t.on k) (t'.on k)
  massEjected : t'.massEjected = c.gasMass * t.massEjected
  angmomEjected : t'.angmomEjected = c.gasMass * (c.length * c.velocity) * t.angmomEjected

theorem totals_add {t t' r r' : Totals} (h : c.TotalsR t t') (h' : c.TotalsR r r') : c.TotalsR (t + r) (t' + r') := by
  refine ⟨fun k => ?_, times.add h.massEjected h'.massEjected, times.add h.angmomEjected h'.angmomEjected⟩
  have a := h.on k
  have b := h'.on k
  exact ⟨times.add a.mass b.mass, times.add a.angmom b.angmom, times.add a.torque b.torque, times.add a.momentumX b.momentumX, times.add a.momentumY b.momentumY,
    times.add a.forceX b.forceX, times.add a.forceY b.forceY, fun hg => times.add (a.work hg) (b.work hg)⟩

theorem totals_zero : c.TotalsR 0 0 :=
  ⟨fun _ => ⟨(mul_zero _).symm, (mul_zero _).symm, (mul_zero _).symm, (mul_zero _).symm, (mul_zero _).symm, (mul_zero _).symm, (mul_zero _).symm,
    fun _ => (mul_zero _).symm⟩, (mul_zero _).symm, (mul_zero _).symm⟩

theorem bodyTotals_units (lin : Bool) (b : PointMass) {X X' : Arr 2 (ℝ × ℝ)} (hX : ArrR (pairTimes c.length) X X') {A A' : Arr 2 ℝ}
    (hA : ArrR (times (c.length ^ 2)) A A') {F F' : Arr 2 (ℝ × ℝ)} (hF : ArrR (pairTimes (c.density * c.velocity / c.time)) F F') {G G' S S' : Arr 2 Tri}
    (hG : ArrR (c.consR lin) G G') (hS : ArrR (c.consR lin) S S') {dt dt' : ℝ} (hdt : times c.time dt dt') :
    AlikeIf (c.gasMass = c.bodyMass) c.BodyR (bodyTotals lin b X A F G S dt) (bodyTotals lin (c.point b) X' A' F' G' S' dt') := by
  have ht := c.time_pos
  unfold bodyTotals
  refine (AlikeIf.of (integral_units (hS.map fun _ _ h => mass_times h) hA (j := c.gasMass) rfl)).bind fun x1 x1' h1 => ?_
  refine (AlikeIf.of (angmomDensity_units lin hS hX)).bind fun l l' hl => ?_
  refine (AlikeIf.of (integral_units hl hA (j := c.gasMass * (c.length * c.velocity)) (by unfold gasMass; ring))).bind fun x2 x2' h2 => ?_
  refine (AlikeIf.of (angmomDensity_units lin hG hX)).bind fun l l' hl => ?_
  refine (AlikeIf.of (integral_units hl hA (j := c.gasMass * (c.length * c.velocity)) (by unfold gasMass; ring))).bind fun x3 x3' h3 => ?_
  have hFx : ArrR (times (c.density * c.velocity)) (F.map fun f => f.1 * dt) (F'.map fun f => f.1 * dt') := by
    refine hF.map ?_
    rintro f _ rfl
    refine times.mul (rfl : times (c.density * c.velocity / c.time) f.1 _) hdt ?_
    field_simp
  have hFy : ArrR (times (c.density * c.velocity)) (F.map fun f => f.2 * dt) (F'.map fun f => f.2 * dt') := by
    refine hF.map ?_
    rintro f _ rfl
    refine times.mul (rfl : times (c.density * c.velocity / c.time) f.2 _) hdt ?_
    field_simp
  refine (AlikeIf.of (integral_units hFx hA (j := c.gasMass * c.velocity) (by unfold gasMass; ring))).bind fun x4 x4' h4 => ?_
  refine (AlikeIf.of (integral_units hFy hA (j := c.gasMass * c.velocity) (by unfold gasMass; ring))).bind fun x5 x5' h5 => ?_
  refine (AlikeIf.of (momentumDensity_units lin hS hX)).bind fun p p' hp => ?_
  have hpx : ArrR (times (c.density * c.velocity)) (p.map Prod.fst) (p'.map Prod.fst) := by
    refine hp.map ?_
    rintro f _ rfl
    exact (rfl : _ = _)
  have hpy : ArrR (times (c.density * c.velocity)) (p.map Prod.snd) (p'.map Prod.snd) := by
    refine hp.map ?_
    rintro f _ rfl
    exact (rfl : _ = _)
  refine (AlikeIf.of (integral_units hpx hA (j := c.gasMass * c.velocity) (by unfold gasMass; ring))).bind fun x6 x6' h6 => ?_
  refine (AlikeIf.of (integral_units hpy hA (j := c.gasMass * c.velocity) (by unfold gasMass; ring))).bind fun x7 x7' h7 => ?_
  refine (AlikeIf.of (hS.binaryOp hA (T := triTimes c.gasMass (c.mom lin * c.length ^ 2)) fun x x' y y' hx hy => hx.mul hy rfl rfl)).bind fun D D' hD => ?_
  refine (AlikeIf.of (hD.sum (triTimes_linear _ _).default (triTimes_linear _ _).add)).bind fun du du' hdu => ?_
  refine (AlikeIf.given fun hg => workOn_units hg lin b hdu.neg).bind fun w w' hw => AlikeIf.ok ?_
  exact ⟨times.neg h1, times.neg h2, times.neg h3, times.neg h6, times.neg h7, times.neg h4, times.neg h5, hw⟩

include hm hp hs in
theorem sourceTerms_units (lin : Bool) (b : State) {p0 p0' : Quad Tri} (h0 : TreeR (ArrR c.primR) p0 p0') (i : Index 2) {dt dt' : ℝ} (hdt : times c.time dt dt') :
    AlikeIf (c.gasMass = c.bodyMass) (PairR (ArrR (c.consR lin)) c.TotalsR) (sourceTerms sh lin m s b p0 i dt) (sourceTerms sh lin m' s' (c.bodies b) p0' i dt') := by
  unfold sourceTerms
  refine (AlikeIf.of (hm.centers.at sh i)).bind fun X X' hX => (AlikeIf.of (hm.areas.at sh i)).bind fun A A' hA => (AlikeIf.of (hm.bufferRate.at sh i)).bind fun B B' hB => ?_
  refine (AlikeIf.of ((cons_units hs lin).at sh i)).bind fun U U' hU => ?_
  have hsig : ArrR (times c.density) (U.map Tri.a) (U'.map Tri.a) := hU.map fun _ _ h => mass_times h
  refine (AlikeIf.of (gravForce_units hm b.body1 hX hsig)).bind fun F1 F1' hF1 => (AlikeIf.of (gravForce_units hm b.body2 hX hsig)).bind fun F2 F2' hF2 => ?_
  refine (AlikeIf.of (gravSource_units lin hX hF1 hdt)).bind fun G1 G1' hG1 => (AlikeIf.of (gravSource_units lin hX hF2 hdt)).bind fun G2 G2' hG2 => ?_
  refine (AlikeIf.of (sinkSource_units hm lin b.body1 hX hU hdt)).bind fun S1 S1' hS1 => (AlikeIf.of (sinkSource_units hm lin b.body2 hX hU hdt)).bind fun S2 S2' hS2 => ?_
  refine (AlikeIf.of ((init_units hm lin).at sh i)).bind fun I I' hI => (AlikeIf.of (bufferSource_units lin hI hU hB hdt)).bind fun Bu Bu' hBu => ?_
  refine AlikeIf.bind (R := ArrR (c.consR lin)) (AlikeIf.of ?_) fun E E' hE => ?_
  · cases lin with
    | true =>
      rw [if_pos rfl, if_pos rfl, hm.params]
      exact Alike.ok (hU.map fun u u' hu => floorCell_units true m.params hu)
    | false =>
      rw [if_neg Bool.noConfusion, if_neg Bool.noConfusion]
      exact (h0.at sh i).bind fun P P' hP => (hP.binaryOpO hX fun u u' x x' hu hx => geomCell_units hm hp b hdt hu hx).bind fun A A' hA =>
        hA.evaluate (triTimes_linear _ _).default
  refine (bodyTotals_units lin b.body1 hX hA hF1 hG1 hS1 hdt).bind fun t1 t1' ht1 => (bodyTotals_units lin b.body2 hX hA hF2 hG2 hS2 hdt).bind fun t2 t2' ht2 => ?_
  refine (AlikeIf.of (integral_units (hBu.map fun _ _ h => mass_times h) hA (j := c.gasMass) rfl)).bind fun x1 x1' h1 => ?_
  refine (AlikeIf.of (angmomDensity_units lin hBu hX)).bind fun l l' hl => ?_
  refine (AlikeIf.of (integral_units hl hA (j := c.gasMass * (c.length * c.velocity)) (by unfold gasMass; ring))).bind fun x2 x2' h2 => ?_
  have hadd : ∀ {P P' Q Q' : Arr 2 Tri}, ArrR (c.consR lin) P P' → ArrR (c.consR lin) Q Q' →
      AlikeIf (c.gasMass = c.bodyMass) (ArrR (c.consR lin)) (binaryOp Tri.add P Q) (binaryOp Tri.add P' Q') := fun hP hQ =>
    AlikeIf.of (hP.binaryOp hQ fun x x' y y' hx hy => hx.add hy)
  refine (hadd hG1 hG2).bind fun _ _ h => (hadd h hS1).bind fun _ _ h => (hadd h hS2).bind fun _ _ h => (hadd h hBu).bind fun _ _ h => (hadd h hE).bind fun _ _ h => ?_
  refine (AlikeIf.of (h.evaluate (triTimes_linear _ _).default)).bind fun _ _ h => AlikeIf.ok ⟨h, ?_⟩
  refine ⟨fun k => ?_, times.neg h1, times.neg h2⟩
  match k with
  | 0 => exact ht1
  | 1 => exact ht2

end Scale

end Verif.Binary
