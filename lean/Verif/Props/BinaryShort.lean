import Verif.Props.BinarySafety
import Verif.Props.TwoBodyChanges
import Mathlib.Topology.Algebra.Order.Field

/-!
# C92: short steps of the binary program

The hypotheses of the theorems are met by the initial state of a run with the default values (or with `conserve_linear_p=0`): `step_exists` and the
example after it in `Verif/Props/BinarySetup.lean`.
-/

namespace Verif.TwoBody

open Filter Topology Spec

/-- The elements of an orbit can be computed for states near a bound one. -/
theorem bound_near {S : ℝ → State} {X Y U V : ℝ} (h : Pair (S 0) X Y U V) (hE : energy (seenFrom (S 0) X Y U V) < 0)
    (hL : angularMomentum (seenFrom (S 0) X Y U V) ≠ 0)
    (a1 : ContinuousAt (fun d => (S d).body1.mass) 0) (a2 : ContinuousAt (fun d => (S d).body2.mass) 0)
    (b1 : ContinuousAt (fun d => (S d).body1.x) 0) (b2 : ContinuousAt (fun d => (S d).body2.x) 0)
    (c1 : ContinuousAt (fun d => (S d).body1.y) 0) (c2 : ContinuousAt (fun d => (S d).body2.y) 0)
    (d1 : ContinuousAt (fun d => (S d).body1.vx) 0) (d2 : ContinuousAt (fun d => (S d).body2.vx) 0)
    (e1 : ContinuousAt (fun d => (S d).body1.vy) 0) (e2 : ContinuousAt (fun d => (S d).body2.vy) 0) (t : ℝ) :
    ∀ᶠ d in 𝓝 (0 : ℝ), ∃ P, computeOrbitalElements (S d) t = .ok P ∧ 0 < P.elements.separation ∧ 0 < P.elements.totalMass := by
  have hm1 := h.m1
  have hm2 := h.m2
  obtain ⟨cm1, cm2, cm3, cm4⟩ := h.cm
  have hM : (S 0).body1.mass + (S 0).body2.mass ≠ 0 := by linarith
  let X' : ℝ → ℝ := fun d => ((S d).body1.mass * (S d).body1.x + (S d).body2.mass * (S d).body2.x) / ((S d).body1.mass + (S d).body2.mass)
  let Y' : ℝ → ℝ := fun d => ((S d).body1.mass * (S d).body1.y + (S d).body2.mass * (S d).body2.y) / ((S d).body1.mass + (S d).body2.mass)
  let U' : ℝ → ℝ := fun d => ((S d).body1.mass * (S d).body1.vx + (S d).body2.mass * (S d).body2.vx) / ((S d).body1.mass + (S d).body2.mass)
  let V' : ℝ → ℝ := fun d => ((S d).body1.mass * (S d).body1.vy + (S d).body2.mass * (S d).body2.vy) / ((S d).body1.mass + (S d).body2.mass)
  have hX : X' 0 = X := by show _ / _ = _; rw [cm1]; field_simp
  have hY : Y' 0 = Y := by show _ / _ = _; rw [cm2]; field_simp
  have hU : U' 0 = U := by show _ / _ = _; rw [cm3]; field_simp
  have hV : V' 0 = V := by show _ / _ = _; rw [cm4]; field_simp
  have cX : ContinuousAt X' 0 := ((a1.mul b1).add (a2.mul b2)).div (a1.add a2) hM
  have cY : ContinuousAt Y' 0 := ((a1.mul c1).add (a2.mul c2)).div (a1.add a2) hM
  have cU : ContinuousAt U' 0 := ((a1.mul d1).add (a2.mul d2)).div (a1.add a2) hM
  have cV : ContinuousAt V' 0 := ((a1.mul e1).add (a2.mul e2)).div (a1.add a2) hM
  have hdist : distance (seenFrom (S 0) (X' 0) (Y' 0) (U' 0) (V' 0)) = distance (S 0) := by
    unfold distance seenFrom
    dsimp only
    congr 1
    ring
  have cdist : ContinuousAt (fun d => distance (S d)) 0 := by
    unfold distance
    exact (((b2.sub b1).pow 2).add ((c2.sub c1).pow 2)).sqrt
  have cdist' : ContinuousAt (fun d => distance (seenFrom (S d) (X' d) (Y' d) (U' d) (V' d))) 0 := by
    unfold distance seenFrom
    exact ((((b2.sub cX).sub (b1.sub cX)).pow 2).add (((c2.sub cY).sub (c1.sub cY)).pow 2)).sqrt
  have cE : ContinuousAt (fun d => energy (seenFrom (S d) (X' d) (Y' d) (U' d) (V' d))) 0 := by
    unfold energy
    refine (((a1.mul (((d1.sub cU).pow 2).add ((e1.sub cV).pow 2))).div_const 2).add
      ((a2.mul (((d2.sub cU).pow 2).add ((e2.sub cV).pow 2))).div_const 2)).sub ((a1.mul a2).div cdist' ?_)
    rw [hdist]
    exact h.d.ne'
  have cL : ContinuousAt (fun d => angularMomentum (seenFrom (S d) (X' d) (Y' d) (U' d) (V' d))) 0 := by
    unfold angularMomentum
    exact (a1.mul (((b1.sub cX).mul (e1.sub cV)).sub ((c1.sub cY).mul (d1.sub cU)))).add
      (a2.mul (((b2.sub cX).mul (e2.sub cV)).sub ((c2.sub cY).mul (d2.sub cU))))
  rw [← hX, ← hY, ← hU, ← hV] at hE hL
  filter_upwards [a1.tendsto.eventually_const_lt hm1, a2.tendsto.eventually_const_lt hm2, cdist.tendsto.eventually_const_lt h.d, cE.tendsto.eventually_lt_const hE, cL.eventually_ne hL]
    with d k1 k2 k3 k4 k5
  have hM' : (S d).body1.mass + (S d).body2.mass ≠ 0 := by linarith
  obtain ⟨P, hP, hmass, _, _, _, _, _, hsep, _⟩ := elements_recovered (S d) t (X' d) (Y' d) (U' d) (V' d) k1 k2 k3 ⟨by
    show _ = _ * (_ / _)
    field_simp, by
    show _ = _ * (_ / _)
    field_simp, by
    show _ = _ * (_ / _)
    field_simp, by
    show _ = _ * (_ / _)
    field_simp⟩ k4 k5
  exact ⟨P, hP, hsep, by rw [hmass]; linarith⟩

theorem diff_ok (a b : FullElements) (h1 : 0 < b.elements.separation) (h2 : 0 < b.elements.totalMass) : ∃ D, diff a b = .ok D := by
  unfold diff orbitalPeriod
  dsimp only
  rw [if_neg (by
    rintro (h | h)
    · exact h1.ne' h
    · have : 0 < b.elements.totalMass / b.elements.separation / b.elements.separation / b.elements.separation := by positivity
      linarith)]
  exact ⟨_, rfl⟩

end Verif.TwoBody

namespace Verif.Tree

open Filter

/-- Something that holds eventually at each leaf holds eventually at all leaves. -/
theorem eventually_leaves {α : Type} {l : Filter ℝ} {R : Nat} (T : Tree R α) {P : Index R → ℝ → Prop}
    (h : ∀ i a, LeafAt T i a → ∀ᶠ d in l, P i d) : ∀ᶠ d in l, ∀ i a, LeafAt T i a → P i d := by
  induction T generalizing P with
  | leaf b =>
    filter_upwards [h Index.root b (.here _)] with d hd i a hi
    obtain ⟨rfl, _⟩ := leafAt_leaf.1 hi
    exact hd
  | node c ih =>
    have : ∀ᶠ d in l, ∀ k : Fin (2 ^ R), ∀ i a, LeafAt (c k) i a → P (Index.descend (Fin.val k) i) d :=
      eventually_all.2 fun k => ih k (P := fun i => P (Index.descend (Fin.val k) i)) fun i a hi => h _ a (leafAt_node.2 ⟨k, i, rfl, hi⟩)
    filter_upwards [this] with d hd i a hi
    obtain ⟨k, j, rfl, hj⟩ := leafAt_node.1 hi
    exact hd k j a hj

theorem mem_leaves_leafAt {α : Type} {R : Nat} {t : Tree R α} {a : α} (h : a ∈ leaves t) : ∃ i, LeafAt t i a := by
  induction t with
  | leaf b =>
    cases List.mem_singleton.1 h
    exact ⟨_, .here _⟩
  | node c ih =>
    obtain ⟨k, _, hk⟩ := List.mem_flatMap.1 h
    obtain ⟨i, hi⟩ := ih k hk
    exact ⟨_, leafAt_node.2 ⟨k, i, rfl, hi⟩⟩

end Verif.Tree

namespace Verif.Binary

open Verif Verif.Nd Verif.Tree Iso2d Geometry TwoBody Filter Topology

variable {sh : Nat → Outcome Nat}

theorem anyNegative_ok (hs : TotalShift sh) {lin : Bool} {m : SolverData} {D N : Nat} (hm : MeshData lin m D N) {t : Quad Tri}
    {g : Index 2 → Nat → Nat → Tri} (hg : Blocks m.vertices t N N g) {i : Index 2} {c : Arr 2 (ℝ × ℝ)} (hi : LeafAt m.vertices i c)
    (h : ∀ x, x < N → ∀ y, y < N → 0 ≤ (g i x y).a) : anyNegative sh m t i = .ok false := by
  have hT := hm.shaped
  have hlev : i.level ≤ 31 := by have := hT.depth i c hi; have := hT.small; omega
  have hN := hT.pos
  have hlt := hT.lt
  obtain ⟨U, hU, eU⟩ := at_ok hs.1 hg.1 hi hlev
  obtain ⟨X, hX, eX⟩ := at_ok hs.1 hm.centers.1 hi hlev
  obtain ⟨Z, eZ, hZ⟩ := (hm.centers.2 i X hX).binaryOp (hg.2 i U hU) Prod.mk
  obtain ⟨L, hL, hmem, _⟩ := elements_denotes (grid_iff.1 hZ) (Or.inl (by
    intro a
    fin_cases a <;> exact hN)) (by
    intro a
    fin_cases a <;> (show N < 2 ^ 64; omega))
  unfold anyNegative
  rw [eX, Outcome.bind_ok, eU, Outcome.bind_ok, eZ, Outcome.bind_ok, hL, Outcome.map_ok]
  refine congrArg _ ?_
  rw [List.any_eq_false]
  intro p hp
  obtain ⟨j, hj, rfl⟩ := List.mem_map.1 hp
  have hj := (hmem j).1 hj
  have := h (j 0) (hj 0) (j 1) (hj 1)
  simpa using this

theorem validate_ok (hs : TotalShift sh) {lin : Bool} {m : SolverData} {D N : Nat} (hm : MeshData lin m D N) {s : Solution}
    {g : Index 2 → Nat → Nat → Tri} (hg : Blocks m.vertices (cons lin s) N N g)
    (h : ∀ i c, LeafAt m.vertices i c → ∀ x, x < N → ∀ y, y < N → 0 ≤ (g i x y).a) : validate sh lin m s = .ok s := by
  have hT := hm.shaped
  obtain ⟨u, _, eu, hsh, hu⟩ := mapIndexes_choose (γ := Unit) (f := anyNegative sh m (cons lin s)) (P := fun _ B _ => B = false) (cons lin s) D
    (hT.depth.sameShape hg.1) (by have := hT.small; omega) (fun i a hi => by
      obtain ⟨c, hc⟩ := (hg.1 i).1 ⟨a, hi⟩
      exact ⟨false, (), anyNegative_ok hs hm hg hc (h i c hc), rfl⟩)
  unfold validate
  rw [eu, Outcome.bind_ok, if_neg]
  rw [Bool.not_eq_true, List.any_eq_false]
  intro v hv
  rw [sink_eq_leaves] at hv
  obtain ⟨i, hi⟩ := mem_leaves_leafAt hv
  rw [(hu i v hi).2]
  decide

/-- The density of a cell falls at most at a constant rate, while the fluxes are the same. -/
theorem Stepped.density {lin : Bool} {m : SolverData} {N : Nat} {b : State} {dt : ℝ} {f init e : Index 2 → Nat → Nat → Tri}
    {br : Index 2 → Nat → Nat → ℝ} {gx gy g : Index 2 → Nat → Nat → Tri} {t : Totals} (h : Stepped lin m N b dt f init e br gx gy g t)
    {i : Index 2} {c : Arr 2 (ℝ × ℝ)} (hi : LeafAt m.vertices i c) {x : Nat} (hx : x < N) {y : Nat} (hy : y < N) (hf : 0 ≤ (f i x y).a) :
    (f i x y).a + dt * (-(((gx i (x + 1) y - gx i x y).add (gy i (y + 1) x - gy i y x)).a / cellSize m.params.domainRadius N i ^ 2)
      - (f i x y).a * drain m.params.sinkRate m.params.sinkRadius b.body1 (cellCenter m.params.domainRadius N i x y)
      - (f i x y).a * drain m.params.sinkRate m.params.sinkRadius b.body2 (cellCenter m.params.domainRadius N i x y)
      + ((init i x y).a - (f i x y).a) * br i x y) ≤ (g i x y).a := by
  have he : 0 ≤ (e i x y).a := by
    cases lin with
    | true =>
      rw [h.floor rfl i c hi x hx y hy]
      show 0 ≤ (f i x y).a * (1 / 100) * (if _ then (1 : ℝ) else 0)
      split <;> linarith
    | false => rw [(h.geometric rfl i c hi x hx y hy).1]
  rw [h.cells i c hi x hx y hy]
  show _ ≤ (f i x y).a - ((gx i (x + 1) y - gx i x y).add (gy i (y + 1) x - gy i y x)).a * dt / _ +
    ((gravS lin m b.body1 dt _ _).a + (gravS lin m b.body2 dt _ _).a + -(f i x y).a * drain m.params.sinkRate m.params.sinkRadius b.body1 _ * dt
      + -(f i x y).a * drain m.params.sinkRate m.params.sinkRadius b.body2 _ * dt + ((init i x y).a - (f i x y).a) * br i x y * dt + (e i x y).a)
  rw [gravS_a, gravS_a]
  have : ∀ F C : ℝ, F * dt / C = dt * (F / C) := fun F C => by ring
  rw [this]
  linarith

/-- A state of positive density with a bound binary can be advanced by every step that is short enough. -/
theorem short_step (hs : TotalShift sh) {m : SolverData} {D N : Nat} (hm : MeshData m.conserveLinear m D N) {s : Solution}
    {f : Index 2 → Nat → Nat → Tri} {b : State} (hst : StateData m.conserveLinear m N s f b) (hE : Elliptic s.orbit.elements)
    (hr : 0 ≤ m.params.sinkRate) (fuel : Nat) (z : Fin 9 → Bool) (safe : Bool) :
    ∃ ε > 0, ∀ dt, 0 ≤ dt → dt ≤ ε → ∃ s1, advance sh (fuel + 1) z m s dt safe = .ok s1 := by
  obtain ⟨br, hbr⟩ := hm.buffer
  obtain ⟨init, hinit⟩ := hm.initial
  obtain ⟨p0, fx, fy, p, gx, gy, eF, hp, hx, hy⟩ := stepFluxes_ok hs hm hst fuel z safe
  -- densities
  have hdens : ∀ᶠ d in 𝓝 (0 : ℝ), ∀ i c, LeafAt m.vertices i c → ∀ x, x < N → ∀ y, y < N → 0 ≤ (f i x y).a +
      d * (-(((gx i (x + 1) y - gx i x y).add (gy i (y + 1) x - gy i y x)).a / cellSize m.params.domainRadius N i ^ 2)
      - (f i x y).a * drain m.params.sinkRate m.params.sinkRadius b.body1 (cellCenter m.params.domainRadius N i x y)
      - (f i x y).a * drain m.params.sinkRate m.params.sinkRadius b.body2 (cellCenter m.params.domainRadius N i x y)
      + ((init i x y).a - (f i x y).a) * br i x y) := by
    refine eventually_leaves (P := fun i d => ∀ x, x < N → ∀ y, y < N → 0 ≤ (f i x y).a + d * (_ : ℝ)) m.vertices fun i c hi => ?_
    rw [show (fun d : ℝ => ∀ x, x < N → ∀ y, y < N → 0 ≤ (f i x y).a +
      d * (-(((gx i (x + 1) y - gx i x y).add (gy i (y + 1) x - gy i y x)).a / cellSize m.params.domainRadius N i ^ 2)
      - (f i x y).a * drain m.params.sinkRate m.params.sinkRadius b.body1 (cellCenter m.params.domainRadius N i x y)
      - (f i x y).a * drain m.params.sinkRate m.params.sinkRadius b.body2 (cellCenter m.params.domainRadius N i x y)
      + ((init i x y).a - (f i x y).a) * br i x y)) = (fun d : ℝ => ∀ x ∈ Finset.range N, ∀ y ∈ Finset.range N, 0 ≤ (f i x y).a +
      d * (-(((gx i (x + 1) y - gx i x y).add (gy i (y + 1) x - gy i y x)).a / cellSize m.params.domainRadius N i ^ 2)
      - (f i x y).a * drain m.params.sinkRate m.params.sinkRadius b.body1 (cellCenter m.params.domainRadius N i x y)
      - (f i x y).a * drain m.params.sinkRate m.params.sinkRadius b.body2 (cellCenter m.params.domainRadius N i x y)
      + ((init i x y).a - (f i x y).a) * br i x y)) by simp only [Finset.mem_range]]
    refine (Filter.eventually_all_finset _).2 fun x hx => (Filter.eventually_all_finset _).2 fun y hy => ?_
    have hpos := hst.density i c hi x (Finset.mem_range.1 hx) y (Finset.mem_range.1 hy)
    have hc : ∀ A K : ℝ, 0 < A → ∀ᶠ d in 𝓝 (0 : ℝ), 0 ≤ A + d * K := by
      intro A K hA
      have : ContinuousAt (fun d : ℝ => A + d * K) 0 := by fun_prop
      exact (this.tendsto.eventually_const_lt (u := 0) (by simpa using hA)).mono fun _ h => h.le
    exact hc _ _ hpos
  -- the orbit
  obtain ⟨hpair, hL, _⟩ := pair_of_full hE hst.bodies
  obtain ⟨_, _, _, hen, _⟩ := full_state_elements s.orbit s.time b hE.a hE.M hE.q hE.e0 hE.e1 hst.bodies
  have hneg : Spec.energy (Spec.seenFrom b s.orbit.cmX s.orbit.cmY s.orbit.cmVx s.orbit.cmVy) < 0 := by
    rw [hen]
    have := mul_pos hpair.m1 hpair.m2
    have := hE.a
    exact div_neg_of_neg_of_pos (by linarith) (by linarith)
  let A : Fin 2 → ℝ := fun k => diskIntegral m N f (fun u p => drain m.params.sinkRate m.params.sinkRadius (body b k) p * u.a)
  let Px : Fin 2 → ℝ := fun k => diskIntegral m N f (fun u p => drain m.params.sinkRate m.params.sinkRadius (body b k) p * (momentum m.conserveLinear u p).1)
  let Py : Fin 2 → ℝ := fun k => diskIntegral m N f (fun u p => drain m.params.sinkRate m.params.sinkRadius (body b k) p * (momentum m.conserveLinear u p).2)
  let Fx : Fin 2 → ℝ := fun k => diskIntegral m N f (fun u p => u.a * (pull m.params.softening (body b k) p).1)
  let Fy : Fin 2 → ℝ := fun k => diskIntegral m N f (fun u p => u.a * (pull m.params.softening (body b k) p).2)
  let acc : Fin 2 → ℝ → PointMass := fun k d => ⟨(body b k).mass + d * A k, (body b k).x, (body b k).y,
    if m.noAccretionForce then (body b k).vx else ((body b k).mass * (body b k).vx + d * Px k) / ((body b k).mass + d * A k),
    if m.noAccretionForce then (body b k).vy else ((body b k).mass * (body b k).vy + d * Py k) / ((body b k).mass + d * A k)⟩
  let grv : Fin 2 → ℝ → PointMass := fun k d => ⟨(body b k).mass, (body b k).x, (body b k).y,
    (body b k).vx + -(d * Fx k) / (body b k).mass, (body b k).vy + -(d * Fy k) / (body b k).mass⟩
  have hbm : ∀ k, 0 < (body b k).mass := by
    intro k
    fin_cases k
    · exact hpair.m1
    · exact hpair.m2
  have acc0 : ∀ k, acc k 0 = body b k := by
    intro k
    have := (hbm k).ne'
    have h1 : (body b k).mass * (body b k).vx / (body b k).mass = (body b k).vx := by field_simp
    have h2 : (body b k).mass * (body b k).vy / (body b k).mass = (body b k).vy := by field_simp
    simp only [acc, zero_mul, add_zero, h1, h2, ite_self]
  have grv0 : ∀ k, grv k 0 = body b k := by
    intro k
    simp only [grv, zero_mul, neg_zero, zero_div, add_zero]
  have cm : ∀ k, ContinuousAt (fun d => (acc k d).mass) 0 := fun k => by
    show ContinuousAt (fun d => (body b k).mass + d * A k) 0
    fun_prop
  have cvx : ∀ k, ContinuousAt (fun d => (acc k d).vx) 0 := fun k => by
    show ContinuousAt (fun d => if m.noAccretionForce then (body b k).vx else ((body b k).mass * (body b k).vx + d * Px k) / ((body b k).mass + d * A k)) 0
    cases m.noAccretionForce
    · refine ContinuousAt.div (by fun_prop) (by fun_prop) ?_
      rw [zero_mul, add_zero]
      exact (hbm k).ne'
    · exact continuousAt_const
  have cvy : ∀ k, ContinuousAt (fun d => (acc k d).vy) 0 := fun k => by
    show ContinuousAt (fun d => if m.noAccretionForce then (body b k).vy else ((body b k).mass * (body b k).vy + d * Py k) / ((body b k).mass + d * A k)) 0
    cases m.noAccretionForce
    · refine ContinuousAt.div (by fun_prop) (by fun_prop) ?_
      rw [zero_mul, add_zero]
      exact (hbm k).ne'
    · exact continuousAt_const
  have cgx : ∀ k, ContinuousAt (fun d => (grv k d).vx) 0 := fun k => by
    show ContinuousAt (fun d => (body b k).vx + -(d * Fx k) / (body b k).mass) 0
    fun_prop
  have cgy : ∀ k, ContinuousAt (fun d => (grv k d).vy) 0 := fun k => by
    show ContinuousAt (fun d => (body b k).vy + -(d * Fy k) / (body b k).mass) 0
    fun_prop
  have hacc := bound_near (S := fun d => ⟨acc 0 d, acc 1 d⟩) (X := s.orbit.cmX) (Y := s.orbit.cmY) (U := s.orbit.cmVx) (V := s.orbit.cmVy)
    (by rw [acc0, acc0]; exact hpair) (by rw [acc0, acc0]; exact hneg) (by rw [acc0, acc0]; exact hL.ne') (cm 0) (cm 1)
    continuousAt_const continuousAt_const continuousAt_const continuousAt_const (cvx 0) (cvx 1) (cvy 0) (cvy 1) s.time
  have hgrv := bound_near (S := fun d => ⟨grv 0 d, grv 1 d⟩) (X := s.orbit.cmX) (Y := s.orbit.cmY) (U := s.orbit.cmVx) (V := s.orbit.cmVy)
    (by rw [grv0, grv0]; exact hpair) (by rw [grv0, grv0]; exact hneg) (by rw [grv0, grv0]; exact hL.ne') continuousAt_const continuousAt_const
    continuousAt_const continuousAt_const continuousAt_const continuousAt_const (cgx 0) (cgx 1) (cgy 0) (cgy 1) s.time
  have hmass : ∀ k, ∀ᶠ d in 𝓝 (0 : ℝ), 0 < (acc k d).mass := fun k =>
    (cm k).tendsto.eventually_const_lt (by rw [acc0]; exact hbm k)
  obtain ⟨ε, hε, hall⟩ := Metric.eventually_nhds_iff.1 (hdens.and (hacc.and (hgrv.and ((hmass 0).and (hmass 1)))))
  refine ⟨ε / 2, half_pos hε, fun dt h0 h1 => ?_⟩
  obtain ⟨hd, ⟨P, eP, hP1, hP2⟩, ⟨Q, eQ, hQ1, hQ2⟩, hm0, hm1⟩ := hall (y := dt) (by rw [Real.dist_0_eq_abs, abs_of_nonneg h0]; linarith)
  obtain ⟨u1, t, g, e, eC, hg, hS⟩ := stepCore_of_fluxes hs hm hst h0 hr hbr hinit eF hp hx hy
  obtain ⟨u1', t', eC', hrec⟩ := step_records_partial hs hm hst h0 hr fuel z safe
  rw [eC] at eC'
  cases eC'
  obtain ⟨D1, eD1⟩ := diff_ok s.orbit P hP1 hP2
  obtain ⟨D2, eD2⟩ := diff_ok s.orbit Q hQ1 hQ2
  have ea : ∀ k, bodyAcc m (body b k) (t.on k) = .ok (acc k dt) := by
    intro k
    obtain ⟨r1, _, r2, r3, _⟩ := hrec k
    have : 0 < (acc k dt).mass := by
      fin_cases k
      · exact hm0
      · exact hm1
    unfold bodyAcc
    rw [r1, r2, r3, if_neg this.ne']
  have eg : ∀ k, bodyGrv (body b k) (t.on k) = .ok (grv k dt) := by
    intro k
    obtain ⟨_, _, _, _, _, r2, r3⟩ := hrec k
    unfold bodyGrv
    rw [r2, r3, if_neg (hbm k).ne']
  unfold advance advanceMode
  rw [eC, Outcome.bind_ok]
  dsimp only
  have eo : stepOrbits m s b t = .ok (P, Q) := by
    unfold stepOrbits
    rw [show b.body1 = body b 0 from rfl, show b.body2 = body b 1 from rfl, ea, Outcome.bind_ok, ea, Outcome.bind_ok, eg, Outcome.bind_ok, eg, Outcome.bind_ok, eP,
      Outcome.bind_ok, eQ, Outcome.bind_ok]
  rw [eo, Outcome.bind_ok, eD1, Outcome.bind_ok, eD2, Outcome.bind_ok]
  refine ⟨_, validate_ok hs hm (g := g) ?_ fun i c hi x hx y hy => ?_⟩
  · unfold cons
    cases hl : m.conserveLinear <;> exact hg
  · exact (hd i c hi x hx y hy).trans (hS.density hi hx hy (hst.density i c hi x hx y hy).le)

end Verif.Binary
