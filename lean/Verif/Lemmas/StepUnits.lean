import Verif.Lemmas.OrbitUnits

/-!
# A step of the binary program in other units
-/

namespace Verif

variable {α β α' β' : Type}

/-- If both computations return the results are related; if moreover `g` holds the computations end alike. -/
structure AlikeIf (g : Prop) (R : α → α' → Prop) (o : Outcome α) (o' : Outcome α') : Prop where
  both : ∀ x x', o = .ok x → o' = .ok x' → R x x'
  alike : g → Alike R o o'

namespace AlikeIf

variable {g : Prop} {R : α → α' → Prop} {S : β → β' → Prop} {o : Outcome α} {o' : Outcome α'}

theorem of (h : Alike R o o') : AlikeIf g R o o' := by
  refine ⟨?_, fun _ => h⟩
  rintro x x' rfl rfl
  exact h.ok_iff

theorem given (h : g → Alike R o o') : AlikeIf g (fun x x' => g → R x x') o o' :=
  ⟨fun x x' hx hx' hg => (of (h hg) : AlikeIf g R o o').both x x' hx hx', fun hg => (h hg).mono fun _ _ hr _ => hr⟩

theorem bind {f : α → Outcome β} {f' : α' → Outcome β'} (h : AlikeIf g R o o') (hf : ∀ x x', R x x' → AlikeIf g S (f x) (f' x')) :
    AlikeIf g S (o.bind f) (o'.bind f') := by
  refine ⟨fun y y' hy hy' => ?_, fun hg => (h.alike hg).bind fun x x' hx => (hf x x' hx).alike hg⟩
  obtain ⟨x, hx, hy⟩ := Outcome.bind_eq_ok.1 hy
  obtain ⟨x', hx', hy'⟩ := Outcome.bind_eq_ok.1 hy'
  exact (hf x x' (h.both x x' hx hx')).both y y' hy hy'

theorem ok {x : α} {x' : α'} (h : R x x') : AlikeIf g R (.ok x) (.ok x') := of (.ok h)

theorem map {f : α → β} {f' : α' → β'} (h : AlikeIf g R o o') (hf : ∀ x x', R x x' → S (f x) (f' x')) : AlikeIf g S (o.map f) (o'.map f') :=
  h.bind fun x x' hx => ok (hf x x' hx)

theorem sequence : ∀ {n : Nat} {c : Fin n → Outcome α} {c' : Fin n → Outcome α'}, (∀ k, AlikeIf g R (c k) (c' k)) →
    AlikeIf g (fun x x' => ∀ k, R (x k) (x' k)) (Tree.Tree.sequence c) (Tree.Tree.sequence c')
  | 0, _, _, _ => ok fun k => k.elim0
  | n + 1, c, c', h => by
    unfold Tree.Tree.sequence
    refine (h 0).bind fun x x' hx => (sequence fun k => h k.succ).bind fun xs xs' hxs => ok fun k => ?_
    refine Fin.cases ?_ (fun k => ?_) k
    · exact hx
    · exact hxs k

theorem mapM {r : Nat} {f : α → Outcome β} {f' : α → Outcome β'} (hf : ∀ x, AlikeIf g S (f x) (f' x)) : ∀ t : Tree.Tree r α,
    AlikeIf g (Tree.TreeR S) (t.mapM f) (t.mapM f')
  | .leaf a => (hf a).map fun _ _ h => h
  | .node c => (sequence fun k => mapM hf (c k)).map fun _ _ h => h

end AlikeIf

end Verif

namespace Verif.Binary
open Verif Verif.Nd Verif.Tree Iso2d TwoBody Geometry

namespace Scale

variable {c : Scale} (sh : Nat → Outcome Nat)

/-- The unit of the last two conserved quantities: momentum, or angular momentum, by area. -/
noncomputable def mom (c : Scale) (lin : Bool) : ℝ := if lin then c.density * c.velocity else c.density * c.length * c.velocity

theorem mom_pos (c : Scale) (lin : Bool) : 0 < c.mom lin := by
  have h1 := c.density_pos
  have h2 := c.velocity_pos
  have h3 := c.length_pos
  unfold mom
  split
  · positivity
  · positivity

/-- Conserved quantities by area. -/
abbrev consR (c : Scale) (lin : Bool) : Tri → Tri → Prop := triTimes c.density (c.mom lin)

/-- Primitive quantities. -/
abbrev primR (c : Scale) : Tri → Tri → Prop := triTimes c.density c.velocity

/-- Their derivatives. -/
abbrev gradR (c : Scale) : Tri → Tri → Prop := triTimes (c.density / c.length) (c.velocity / c.length)

/-- Fluxes through a face. -/
abbrev fluxR (c : Scale) (lin : Bool) : Tri → Tri → Prop := triTimes (c.density * c.velocity * c.length) (c.velocity * c.mom lin * c.length)

variable {m m' : SolverData} {s s' : Solution} (hm : c.Setup m m') (hp : c.Fits m.params) (hs : c.Run s s')

theorem cons_units (hs : c.Run s s') (lin : Bool) : TreeR (ArrR (c.consR lin)) (cons lin s) (cons lin s') := by
  unfold cons consR mom
  cases lin
  · exact hs.q
  · exact hs.u

theorem init_units (hm : c.Setup m m') (lin : Bool) : TreeR (ArrR (c.consR lin)) (if lin then m.initialU else m.initialQ) (if lin then m'.initialU else m'.initialQ) := by
  unfold consR mom
  cases lin
  · exact hm.initialQ
  · exact hm.initialU

theorem tri_div {k l j k' l' : ℝ} {x x' : Tri} {r r' : ℝ} (h : triTimes k l x x') (hr : times j r r') (hk : k / j = k') (hl : l / j = l') :
    triTimes k' l' (x.div r) (x'.div r') := by
  rw [h, hr]
  exact Tri.ext (div_of rfl rfl hk) (div_of rfl rfl hl) (div_of rfl rfl hl)

theorem recoverCell_units (lin : Bool) {u u' : Tri} (hu : c.consR lin u u') {x x' : ℝ × ℝ} (hx : pairTimes c.length x x') :
    Alike c.primR (recoverCell lin u x) (recoverCell lin u' x') := by
  have hd := c.density_pos
  have hl := c.length_pos
  have hv := c.velocity_pos
  unfold recoverCell
  have ha : u'.a = c.density * u.a := by rw [hu]
  have hb : u'.b = c.mom lin * u.b := by rw [hu]
  have hc : u'.c = c.mom lin * u.c := by rw [hu]
  have hr : x'.1 * x'.1 + x'.2 * x'.2 = c.length ^ 2 * (x.1 * x.1 + x.2 * x.2) := by
    rw [hx]
    ring
  have h1 : x'.1 = c.length * x.1 := by rw [hx]
  have h2 : x'.2 = c.length * x.2 := by rw [hx]
  refine Alike.guard (by rw [ha]; exact scale_eq_zero hd) fun h0 _ => ?_
  cases lin with
  | true =>
    rw [if_pos rfl, if_pos rfl]
    unfold recover
    dsimp only
    refine Alike.guardThrows (by rw [ha]; exact scale_neg hd) fun _ _ => Alike.ok (Tri.ext ha ?_ ?_)
    · exact div_of hb ha (mul_div_cancel_left₀ _ hd.ne')
    · exact div_of hc ha (mul_div_cancel_left₀ _ hd.ne')
  | false =>
    refine Alike.ite Iff.rfl (fun h => Bool.noConfusion h) fun _ _ => Alike.guard (by rw [hr]; exact scale_eq_zero (pow_pos hl 2)) fun _ _ => ?_
    unfold recoverAngmom
    dsimp only
    refine Alike.guardThrows (by rw [ha]; exact scale_neg hd) fun _ _ => Alike.ok ?_
    have e1 : u'.b / u'.a = c.length * c.velocity * (u.b / u.a) := div_of hb ha (by show c.density * c.length * c.velocity / c.density = _; field_simp)
    have e2 : u'.c / u'.a = c.length * c.velocity * (u.c / u.a) := div_of hc ha (by show c.density * c.length * c.velocity / c.density = _; field_simp)
    rw [e1, e2, hr, h1, h2, ha]
    refine Tri.ext rfl ?_ ?_
    · exact div_of (k := c.length * c.length * c.velocity) (by ring) rfl (by field_simp)
    · exact div_of (k := c.length * c.length * c.velocity) (by ring) rfl (by field_simp)

include hm hs in
theorem recoverPrimitive_units (lin : Bool) : Alike (TreeR (ArrR c.primR)) (recoverPrimitive lin m s) (recoverPrimitive lin m' s') := by
  unfold recoverPrimitive
  cases lin with
  | true =>
    rw [if_pos rfl, if_pos rfl]
    refine (cons_units hs true).mapM fun U U' hU => ?_
    refine (hU.mapO fun u u' hu => recoverCell_units true hu ?_).evaluate (triTimes_linear _ _).default
    exact Prod.ext (mul_zero _).symm (mul_zero _).symm
  | false =>
    rw [if_neg Bool.noConfusion, if_neg Bool.noConfusion]
    refine ((cons_units hs false).pair hm.centers).bind fun t t' ht => ht.mapM fun p p' hp => ?_
    exact (hp.1.binaryOpO hp.2 fun u u' x x' hu hx => recoverCell_units false hu hx).bind fun A A' hA => hA.evaluate (triTimes_linear _ _).default

include hm in
theorem blockSpacing_units (i : Index 2) : Alike (times c.length) (blockSpacing sh m i) (blockSpacing sh m' i) := by
  unfold blockSpacing
  rw [hm.blockSize, hm.params]
  refine Alike.same fun k => Alike.guard Iff.rfl fun _ _ => Alike.ok ?_
  show 2 * (c.length * m.params.domainRadius) / _ / _ = c.length * (2 * m.params.domainRadius / _ / _)
  ring

include hm in
theorem gradients_units (z : Fin 9 → Bool) (theta : ℝ) (a : Fin 2) {t t' : Quad Tri} (ht : TreeR (ArrR c.primR) t t') :
    Alike (TreeR (ArrR c.gradR)) (gradients sh m z theta a t) (gradients sh m' z theta a t') := by
  unfold gradients
  refine ht.pairIndexes.bind fun p p' hp => hp.mapM ?_
  rintro ⟨i, P⟩ ⟨i', P'⟩ ⟨hi, hP⟩
  dsimp only at hi hP
  subst hi
  unfold gradientBlock
  refine (blockSpacing_units sh hm i).bind fun h h' hh => Alike.guard (by rw [hh]; exact scale_eq_zero c.length_pos) fun _ _ => ?_
  refine (hP.zipAdjacent3 a).bind fun Z Z' hZ => ?_
  exact (hZ.map fun p p' hp => gradient_units z theta c.density_pos c.velocity_pos hh hp.1 hp.2.1 hp.2.2).evaluate (triTimes_linear _ _).default

include hm hp in
theorem axisFluxes_units (lin : Bool) (b : State) (a : Fin 2) {pe pe' ge ge' ke ke' : Quad Tri} (hpe : TreeR (ArrR c.primR) pe pe')
    (hge : TreeR (ArrR c.gradR) ge ge') (hke : TreeR (ArrR c.gradR) ke ke') (i : Index 2) :
    Alike (ArrR (c.fluxR lin)) (axisFluxes sh lin m b a pe ge ke i) (axisFluxes sh lin m' (c.bodies b) a pe' ge' ke' i) := by
  have hl := c.length_pos
  unfold axisFluxes
  refine (hm.vertices.at sh i).bind fun xv xv' hxv => ?_
  have hcomp : ArrR (times c.length) (xv.map (component (other a))) (xv'.map (component (other a))) := by
    refine hxv.map ?_
    rintro x _ rfl
    match a with
    | 0 => exact (rfl : _ = _)
    | 1 => exact (rfl : _ = _)
  refine (hcomp.difference _ (S' := times c.length) fun x x' y y' hx hy => hx.sub hy).bind fun d d' hd => ?_
  have hmid : ∀ x x' y y', pairTimes c.length x x' → pairTimes c.length y y' →
      pairTimes c.length ((x + y) * ((1 / 2, 1 / 2) : ℝ × ℝ)) ((x' + y') * ((1 / 2, 1 / 2) : ℝ × ℝ)) := by
    rintro x _ y _ rfl rfl
    refine Prod.ext ?_ ?_
    · show (c.length * x.1 + c.length * y.1) * (1 / 2) = c.length * ((x.1 + y.1) * (1 / 2))
      ring
    · show (c.length * x.2 + c.length * y.2) * (1 / 2) = c.length * ((x.2 + y.2) * (1 / 2))
      ring
  refine (hxv.midpoint _ _ _ hmid).bind fun xf xf' hxf => (hpe.at sh i).bind fun P P' hP => (hP.zipAdjacent2 a).bind fun PP PP' hPP => ?_
  refine (hge.at sh i).bind fun G G' hG => (hG.zipAdjacent2 a).bind fun GG GG' hGG => (hke.at sh i).bind fun H H' hH =>
    (hH.zipAdjacent2 a).bind fun HH HH' hHH => ?_
  refine (hxf.zip hPP).bind fun A A' hA => (hGG.zip hHH).bind fun B B' hB => (hA.zip hB).bind fun Z Z' hZ => (blockSpacing_units sh hm i).bind fun h h' hh => ?_
  refine Alike.bind (R := ArrR (c.fluxR lin)) ?_ fun A A' hA => hA.evaluate (triTimes_linear _ _).default
  refine ArrR.binaryOp (R := triTimes (c.density * c.velocity) (c.velocity * c.mom lin)) (S := times c.length) ?_ hd fun x x' y y' hx hy => hx.mul hy rfl rfl
  refine hZ.mapO fun w w' hw => ?_
  rw [hm.params]
  have hU := intercellFluxU_units hp a b hh hw.1.1 hw.1.2 hw.2.1 hw.2.2
  cases lin with
  | true =>
    rw [if_pos rfl, if_pos rfl]
    refine hU.mono fun x x' hx => ?_
    rw [hx]
    refine Tri.ext rfl ?_ ?_
    · show c.density * c.velocity ^ 2 * _ = c.velocity * (c.density * c.velocity) * _
      ring
    · show c.density * c.velocity ^ 2 * _ = c.velocity * (c.density * c.velocity) * _
      ring
  | false =>
    rw [if_neg Bool.noConfusion, if_neg Bool.noConfusion]
    unfold intercellFluxQ
    refine hU.map fun x x' hx => ?_
    rw [toAngmomFluxes_units m.params a hw.1.1 hx]
    refine Tri.ext rfl ?_ ?_
    · show c.density * c.length * c.velocity ^ 2 * _ = c.velocity * (c.density * c.length * c.velocity) * _
      ring
    · show c.density * c.length * c.velocity ^ 2 * _ = c.velocity * (c.density * c.length * c.velocity) * _
      ring

/-- What the fluxes of a step are computed with. -/
def FluxesR (c : Scale) (lin : Bool) (r r' : Quad Tri × State × Quad Tri × Quad Tri) : Prop :=
  TreeR (ArrR c.primR) r.1 r'.1 ∧ r'.2.1 = c.bodies r.2.1 ∧ TreeR (ArrR (c.fluxR lin)) r.2.2.1 r'.2.2.1 ∧ TreeR (ArrR (c.fluxR lin)) r.2.2.2 r'.2.2.2

include hm hp hs in
theorem stepFluxes_units (fuel : Nat) (z : Fin 9 → Bool) (lin safe : Bool) :
    Alike (c.FluxesR lin) (stepFluxes sh fuel z lin m s safe) (stepFluxes sh fuel z lin m' s' safe) := by
  unfold stepFluxes
  have ht : m'.params.plmTheta = m.params.plmTheta := by rw [hm.params]; rfl
  dsimp only
  rw [ht]
  refine (recoverPrimitive_units hm hs lin).bind fun p0 p0' h0 => ?_
  refine (extend_related sh (triTimes_linear _ _) fuel h0 0).bind fun px px' hx => (extend_related sh (triTimes_linear _ _) fuel h0 1).bind fun py py' hy => ?_
  refine (gradients_units sh hm z _ 0 hx).bind fun gx gx' hgx => (gradients_units sh hm z _ 1 hy).bind fun gy gy' hgy => ?_
  refine (extend_related sh (triTimes_linear _ _) fuel hgx 0).bind fun gxx gxx' hgxx => (extend_related sh (triTimes_linear _ _) fuel hgx 1).bind fun gxy gxy' hgxy => ?_
  refine (extend_related sh (triTimes_linear _ _) fuel hgy 0).bind fun gyx gyx' hgyx => (extend_related sh (triTimes_linear _ _) fuel hgy 1).bind fun gyy gyy' hgyy => ?_
  rw [hs.time, hs.orbit]
  refine (fullTwoBodyState_units s.orbit s.time).bind ?_
  rintro b _ rfl
  rw [h0.indexes]
  have hF : Alike (TreeR (PairR (ArrR (c.fluxR lin)) (ArrR (c.fluxR lin)))) (Tree.mapM (blockFluxes sh lin m b px py gxx gxy gyx gyy) (p0'.indexes ⟨0, fun _ => 0⟩))
      (Tree.mapM (blockFluxes sh lin m' (c.bodies b) px' py' gxx' gxy' gyx' gyy') (p0'.indexes ⟨0, fun _ => 0⟩)) := by
    refine (TreeR.refl _).mapM ?_
    rintro i _ rfl
    unfold blockFluxes
    exact (axisFluxes_units sh hm hp lin b 0 hx hgxx hgyx i).bind fun fx fx' hfx => (axisFluxes_units sh hm hp lin b 1 hy hgyy hgxy i).bind fun fy fy' hfy =>
      Alike.ok ⟨hfx, hfy⟩
  refine hF.bind fun f f' hf => ?_
  refine (correctFluxes_related sh (triTimes_linear _ _) 0 (hf.map (S := ArrR (c.fluxR lin)) fun p p' hp => hp.1)).bind fun fx fx' hfx => ?_
  refine (correctFluxes_related sh (triTimes_linear _ _) 1 (hf.map (S := ArrR (c.fluxR lin)) fun p p' hp => hp.2)).bind fun fy fy' hfy => ?_
  exact Alike.ok ⟨h0, rfl, hfx, hfy⟩

end Scale

end Verif.Binary
