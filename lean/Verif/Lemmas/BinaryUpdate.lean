import Verif.Lemmas.BinarySources

/-!
# The update of the binary program
-/

namespace Verif.Binary

open Verif Verif.Nd Verif.Tree Iso2d Geometry TwoBody

variable {sh : Nat → Outcome Nat}

/-- The force of the body on the gas, per area. -/
noncomputable def gravF (m : SolverData) (B : PointMass) (u : Tri) (p : ℝ × ℝ) : ℝ × ℝ :=
  ((pull m.params.softening B p).1 * u.a, (pull m.params.softening B p).2 * u.a)

/-- The source term by gravity. -/
noncomputable def gravS (lin : Bool) (m : SolverData) (B : PointMass) (dt : ℝ) (u : Tri) (p : ℝ × ℝ) : Tri :=
  (forceSource lin p (gravF m B u p)).mul dt

/-- The source term by a sink. -/
noncomputable def sinkS (m : SolverData) (B : PointMass) (dt : ℝ) (u : Tri) (p : ℝ × ℝ) : Tri :=
  (u.neg.mul (drain m.params.sinkRate m.params.sinkRadius B p)).mul dt

/-- The source term by the buffer. -/
noncomputable def bufS (dt : ℝ) (init u : Tri) (br : ℝ) : Tri := ((init.sub u).mul br).mul dt

/-- The source terms in a block, and what is recorded: `f` are the conserved quantities, `init` and `br` the initial state and the rate of the
buffer, `e` the remaining source term. -/
structure Sources (lin : Bool) (m : SolverData) (N : Nat) (b : State) (dt : ℝ) (i : Index 2) (f init e : Nat → Nat → Tri) (br : Nat → Nat → ℝ)
    (S : Arr 2 Tri) (t : Totals) : Prop where
  grid : Grid S N N fun x y => (((((gravS lin m b.body1 dt (f x y) (cellCenter m.params.domainRadius N i x y)).add
    (gravS lin m b.body2 dt (f x y) (cellCenter m.params.domainRadius N i x y))).add
    (sinkS m b.body1 dt (f x y) (cellCenter m.params.domainRadius N i x y))).add
    (sinkS m b.body2 dt (f x y) (cellCenter m.params.domainRadius N i x y))).add
    (bufS dt (init x y) (f x y) (br x y))).add (e x y)
  on : ∀ k, Recorded lin N (fun _ _ => cellSize m.params.domainRadius N i ^ 2) (cellCenter m.params.domainRadius N i) dt
    (fun x y => gravF m (body b k) (f x y) (cellCenter m.params.domainRadius N i x y))
    (fun x y => gravS lin m (body b k) dt (f x y) (cellCenter m.params.domainRadius N i x y))
    (fun x y => sinkS m (body b k) dt (f x y) (cellCenter m.params.domainRadius N i x y)) (t.on k)
  massEjected : t.massEjected = -blockSum N fun x y => (bufS dt (init x y) (f x y) (br x y)).a * cellSize m.params.domainRadius N i ^ 2
  angmomEjected : t.angmomEjected = -blockSum N fun x y =>
    lz lin (bufS dt (init x y) (f x y) (br x y)) (cellCenter m.params.domainRadius N i x y) * cellSize m.params.domainRadius N i ^ 2
  floor : lin = true → ∀ x, x < N → ∀ y, y < N → e x y = floorCell m.params.densityFloor (f x y)
  geometric : lin = false → ∀ x, x < N → ∀ y, y < N → (e x y).a = 0 ∧ (e x y).c = 0

theorem gravForce_ok {m : SolverData} (hs : m.params.softening ≠ 0) (B : PointMass) {N : Nat} (hN : 1 ≤ N) (hNN : N * N < 2 ^ 31)
    {xc : Arr 2 (ℝ × ℝ)} {u0 : Arr 2 Tri} {c : Nat → Nat → ℝ × ℝ} {f : Nat → Nat → Tri} (hx : Grid xc N N c) (hu : Grid u0 N N f) :
    ∃ fg, gravForce m B xc (u0.map Tri.a) = .ok fg ∧ Grid fg N N fun x y => gravF m B (f x y) (c x y) := by
  have h1 := hx.mapO (u := gravVdot m.params (position B) B.mass) (g := fun x y => pull m.params.softening B (c x y))
    fun x _ y _ => gravVdot_pull hs B _
  obtain ⟨C, eC, hC⟩ := h1.binaryOp (hu.map Tri.a) fun v s => (v.1 * s, v.2 * s)
  obtain ⟨E, eE, hE⟩ := hC.evaluate hN hN hNN
  exact ⟨E, by unfold gravForce; rw [eC, Outcome.bind_ok, eE], hE⟩

theorem gravSource_ok (lin : Bool) {m : SolverData} (B : PointMass) {N : Nat} (hN : 1 ≤ N) (hNN : N * N < 2 ^ 31)
    {xc fg : Arr 2 (ℝ × ℝ)} {c : Nat → Nat → ℝ × ℝ} {f : Nat → Nat → Tri} (hx : Grid xc N N c)
    (hf : Grid fg N N fun x y => gravF m B (f x y) (c x y)) (dt : ℝ) :
    ∃ S, gravSource lin xc fg dt = .ok S ∧ Grid S N N fun x y => gravS lin m B dt (f x y) (c x y) := by
  obtain ⟨C, eC, hC⟩ := hx.binaryOp hf fun x f => if lin then forceToSourceU f else forceToSourceQ x f
  obtain ⟨E, eE, hE⟩ := (hC.map (·.mul dt)).evaluate hN hN hNN
  exact ⟨E, by unfold gravSource; rw [eC, Outcome.bind_ok, eE], hE⟩

theorem sinkSource_ok {m : SolverData} (hs : m.params.sinkRadius ≠ 0) (B : PointMass) {N : Nat} (hN : 1 ≤ N) (hNN : N * N < 2 ^ 31)
    {xc : Arr 2 (ℝ × ℝ)} {u0 : Arr 2 Tri} {c : Nat → Nat → ℝ × ℝ} {f : Nat → Nat → Tri} (hx : Grid xc N N c) (hu : Grid u0 N N f) (dt : ℝ) :
    ∃ S, sinkSource m B xc u0 dt = .ok S ∧ Grid S N N fun x y => sinkS m B dt (f x y) (c x y) := by
  have h1 := hx.mapO (u := sinkRate m.params (position B)) (g := fun x y => drain m.params.sinkRate m.params.sinkRadius B (c x y))
    fun x _ y _ => sinkRate_drain hs B _
  obtain ⟨C, eC, hC⟩ := (hu.map Tri.neg).binaryOp h1 fun u r => u.mul r
  obtain ⟨E, eE, hE⟩ := (hC.map (·.mul dt)).evaluate hN hN hNN
  exact ⟨E, by unfold sinkSource; rw [eC, Outcome.bind_ok, eE], hE⟩

theorem bufferSource_ok {N : Nat} (hN : 1 ≤ N) (hNN : N * N < 2 ^ 31) {ini u0 : Arr 2 Tri} {br : Arr 2 ℝ} {i f : Nat → Nat → Tri} {r : Nat → Nat → ℝ}
    (hi : Grid ini N N i) (hu : Grid u0 N N f) (hr : Grid br N N r) (dt : ℝ) :
    ∃ S, bufferSource ini u0 br dt = .ok S ∧ Grid S N N fun x y => bufS dt (i x y) (f x y) (r x y) := by
  obtain ⟨C, eC, hC⟩ := hi.binaryOp hu Tri.sub
  obtain ⟨D, eD, hD⟩ := hC.binaryOp hr Tri.mul
  obtain ⟨E, eE, hE⟩ := (hD.map (·.mul dt)).evaluate hN hN hNN
  exact ⟨E, by unfold bufferSource; rw [eC, Outcome.bind_ok, eD, Outcome.bind_ok, eE], hE⟩

theorem drain_nonneg {rate radius : ℝ} (h : 0 ≤ rate) (B : PointMass) (p : ℝ × ℝ) : 0 ≤ drain rate radius B p :=
  mul_nonneg h (Real.exp_pos _).le

/-- The sinks take mass out of the disk. -/
theorem sink_mass_nonpos {m : SolverData} (hr : 0 ≤ m.params.sinkRate) {dt : ℝ} (hdt : 0 ≤ dt) (B : PointMass) {N : Nat} {f : Nat → Nat → Tri}
    (hf : ∀ x, x < N → ∀ y, y < N → 0 < (f x y).a) (c : Nat → Nat → ℝ × ℝ) {A : ℝ} (hA : 0 ≤ A) :
    blockSum N (fun x y => (sinkS m B dt (f x y) (c x y)).a * A) ≤ 0 := by
  refine Finset.sum_nonpos fun x hx => Finset.sum_nonpos fun y hy => ?_
  have h1 := hf x (Finset.mem_range.1 hx) y (Finset.mem_range.1 hy)
  have h2 := drain_nonneg (radius := m.params.sinkRadius) hr B (c x y)
  show -(f x y).a * drain m.params.sinkRate m.params.sinkRadius B (c x y) * dt * A ≤ 0
  have : 0 ≤ (f x y).a * drain m.params.sinkRate m.params.sinkRadius B (c x y) * dt * A :=
    mul_nonneg (mul_nonneg (mul_nonneg h1.le h2) hdt) hA
  linarith

theorem sourceTerms_ok (hs : TotalShift sh) {lin : Bool} {m : SolverData} {D N : Nat} (hm : MeshData lin m D N) {s : Solution}
    {f : Index 2 → Nat → Nat → Tri} {b : State} (hst : StateData lin m N s f b) {p0 : Quad Tri} {p : Index 2 → Nat → Nat → Tri}
    (hp : Blocks m.vertices p0 N N p) {br : Index 2 → Nat → Nat → ℝ} (hbr : Blocks m.vertices m.bufferRate N N br)
    {init : Index 2 → Nat → Nat → Tri} (hinit : Blocks m.vertices (if lin then m.initialU else m.initialQ) N N init) {dt : ℝ}
    (hdt : 0 ≤ dt) (hr : 0 ≤ m.params.sinkRate) {i : Index 2} {c0 : Arr 2 (ℝ × ℝ)} (hi : LeafAt m.vertices i c0) :
    ∃ S t e, sourceTerms sh lin m s b p0 i dt = .ok (S, t) ∧ Sources lin m N b dt i (f i) (init i) e (br i) S t := by
  have hN := hm.shaped.pos
  have hlt := hm.shaped.lt
  have hNN : N * N < 2 ^ 31 := hm.shaped.of_le (by omega) (by omega)
  have hlev : i.level ≤ 31 := by have := hm.shaped.depth i c0 hi; have := hm.shaped.small; omega
  obtain ⟨xc, hxc, exc⟩ := at_ok hs.1 hm.centers.1 hi hlev
  obtain ⟨dA, hdA, edA⟩ := at_ok hs.1 hm.areas.1 hi hlev
  obtain ⟨bR, hbR, ebR⟩ := at_ok hs.1 hbr.1 hi hlev
  obtain ⟨u0, hu0, eu0⟩ := at_ok hs.1 hst.blocks.1 hi hlev
  obtain ⟨ini, hini, eini⟩ := at_ok hs.1 hinit.1 hi hlev
  have hxc := hm.centers.2 i xc hxc
  have hdA := hm.areas.2 i dA hdA
  have hbR := hbr.2 i bR hbR
  have hu0 := hst.blocks.2 i u0 hu0
  have hini := hinit.2 i ini hini
  obtain ⟨fg1, efg1, hfg1⟩ := gravForce_ok hst.physical.softening b.body1 hN hNN hxc hu0
  obtain ⟨fg2, efg2, hfg2⟩ := gravForce_ok hst.physical.softening b.body2 hN hNN hxc hu0
  obtain ⟨g1, eg1, hg1⟩ := gravSource_ok lin b.body1 hN hNN hxc hfg1 dt
  obtain ⟨g2, eg2, hg2⟩ := gravSource_ok lin b.body2 hN hNN hxc hfg2 dt
  obtain ⟨k1, ek1, hk1⟩ := sinkSource_ok hst.sink b.body1 hN hNN hxc hu0 dt
  obtain ⟨k2, ek2, hk2⟩ := sinkSource_ok hst.sink b.body2 hN hNN hxc hu0 dt
  obtain ⟨bu, ebu, hbu⟩ := bufferSource_ok hN hNN hini hu0 hbR dt
  have hoff : lin = false → ∀ x, x < N → ∀ y, y < N → (cellCenter m.params.domainRadius N i x y).1 * (cellCenter m.params.domainRadius N i x y).1 +
      (cellCenter m.params.domainRadius N i x y).2 * (cellCenter m.params.domainRadius N i x y).2 ≠ 0 := fun hl x _ y _ =>
    center_ne hm.radius hN (hst.offCenter hl i c0 hi) x y
  have hex : ∃ ex e, (if lin then .ok (u0.map (floorCell m.params.densityFloor))
      else (p0.at' sh i).bind fun p => (binaryOpO (geomCell m b dt) p xc).bind evaluate) = .ok ex ∧ Grid ex N N e ∧
      (lin = true → ∀ x, x < N → ∀ y, y < N → e x y = floorCell m.params.densityFloor (f i x y)) ∧
      (lin = false → ∀ x, x < N → ∀ y, y < N → (e x y).a = 0 ∧ (e x y).c = 0) := by
    cases hl : lin with
    | true => exact ⟨_, _, if_pos rfl, hu0.map _, fun _ _ _ _ _ => rfl, fun h => absurd h (by decide)⟩
    | false =>
      subst hl
      obtain ⟨P, hP, eP⟩ := at_ok hs.1 hp.1 hi hlev
      have hcell : ∀ x y, ∃ v, geomCell m b dt (p i x y) (cellCenter m.params.domainRadius N i x y) = .ok v ∧ v.a = 0 ∧ v.c = 0 := by
        intro x y
        obtain ⟨c, ec, _⟩ := cs2At_pos hst.physical (x := cellCenter m.params.domainRadius N i x y) fun _ =>
          center_ne hm.radius hN (hst.offCenter rfl i c0 hi) x y
        unfold geomCell
        dsimp only
        rw [if_neg (mul_self_pos.2 (hst.ramp rfl)).ne', ec, Outcome.bind_ok]
        refine ⟨_, rfl, ?_, ?_⟩
        · show 0 * _ * dt = (0 : ℝ)
          ring
        · show 0 * _ * dt = (0 : ℝ)
          ring
      choose v hv using hcell
      obtain ⟨C, eC, hC⟩ := (hp.2 i P hP).binaryOpO hxc (u := geomCell m b dt) (x := v) fun x _ y _ => (hv x y).1
      obtain ⟨E, eE, hE⟩ := hC.evaluate hN hN hNN
      refine ⟨E, v, ?_, hE, fun h => absurd h (by decide), fun _ x _ y _ => (hv x y).2⟩
      rw [if_neg (by decide), eP, Outcome.bind_ok, eC, Outcome.bind_ok, eE]
  obtain ⟨ex, e, eex, hgex, hfl, hge⟩ := hex
  have hA : (0 : ℝ) ≤ cellSize m.params.domainRadius N i ^ 2 := by positivity
  have hmass : ∀ B : PointMass, 0 < B.mass → lin = true → B.mass ≠ 0 ∧
      B.mass - blockSum N (fun x y => (sinkS m B dt (f i x y) (cellCenter m.params.domainRadius N i x y)).a * cellSize m.params.domainRadius N i ^ 2) ≠ 0 := by
    intro B hB _
    have := sink_mass_nonpos hr hdt B (hst.density i c0 hi) (cellCenter m.params.domainRadius N i) hA
    refine ⟨hB.ne', ?_⟩
    have : 0 < B.mass - blockSum N (fun x y => (sinkS m B dt (f i x y) (cellCenter m.params.domainRadius N i x y)).a * cellSize m.params.domainRadius N i ^ 2) := by
      linarith
    exact this.ne'
  obtain ⟨t1, et1, ht1⟩ := bodyTotals_ok hN hlt hNN lin b.body1 hxc hdA hfg1 hg1 hk1 dt hoff (hmass _ hst.physical.mass1)
  obtain ⟨t2, et2, ht2⟩ := bodyTotals_ok hN hlt hNN lin b.body2 hxc hdA hfg2 hg2 hk2 dt hoff (hmass _ hst.physical.mass2)
  obtain ⟨l, el, hl⟩ := angmomDensity_ok hN hlt lin hbu hxc
  obtain ⟨S1, eS1, hS1⟩ := hg1.binaryOp hg2 Tri.add
  obtain ⟨S2, eS2, hS2⟩ := hS1.binaryOp hk1 Tri.add
  obtain ⟨S3, eS3, hS3⟩ := hS2.binaryOp hk2 Tri.add
  obtain ⟨S4, eS4, hS4⟩ := hS3.binaryOp hbu Tri.add
  obtain ⟨S5, eS5, hS5⟩ := hS4.binaryOp hgex Tri.add
  obtain ⟨S, eS, hS⟩ := hS5.evaluate hN hN hNN
  refine ⟨S, ⟨![t1, t2], _, _⟩, e, ?_, ⟨hS, fun k => ?_, rfl, rfl, hfl, hge⟩⟩
  · unfold sourceTerms
    rw [exc, Outcome.bind_ok, edA, Outcome.bind_ok, ebR, Outcome.bind_ok, eu0, Outcome.bind_ok, efg1, Outcome.bind_ok, efg2, Outcome.bind_ok,
      eg1, Outcome.bind_ok, eg2, Outcome.bind_ok, ek1, Outcome.bind_ok, ek2, Outcome.bind_ok, eini, Outcome.bind_ok, ebu, Outcome.bind_ok,
      eex, Outcome.bind_ok, et1, Outcome.bind_ok, et2, Outcome.bind_ok, integral_ok hN hlt (hbu.map Tri.a) hdA, Outcome.bind_ok, el, Outcome.bind_ok,
      integral_ok hN hlt hl hdA, Outcome.bind_ok, eS1, Outcome.bind_ok, eS2, Outcome.bind_ok, eS3, Outcome.bind_ok, eS4, Outcome.bind_ok,
      eS5, Outcome.bind_ok, eS, Outcome.bind_ok]
  · match k with
    | 0 => exact ht1
    | 1 => exact ht2

/-- A block after the step. -/
structure Updated (lin : Bool) (m : SolverData) (N : Nat) (b : State) (dt : ℝ) (i : Index 2) (f init e : Nat → Nat → Tri) (br : Nat → Nat → ℝ)
    (gx gy : Nat → Nat → Tri) (g : Nat → Nat → Tri) (B : Arr 2 Tri × Totals) : Prop where
  grid : Grid B.1 N N g
  sources : ∃ S σ, Sources lin m N b dt i f init e br S B.2 ∧ Grid S N N σ ∧ ∀ x, x < N → ∀ y, y < N → g x y = ((f x y).sub
    ((((gx (x + 1) y - gx x y).add (gy (y + 1) x - gy y x)).mul dt).div (cellSize m.params.domainRadius N i ^ 2))).add (σ x y)

theorem blockUpdate_ok (hs : TotalShift sh) {lin : Bool} {m : SolverData} {D N : Nat} (hm : MeshData lin m D N) {s : Solution}
    {f : Index 2 → Nat → Nat → Tri} {b : State} (hst : StateData lin m N s f b) {p0 : Quad Tri} {p : Index 2 → Nat → Nat → Tri}
    (hp : Blocks m.vertices p0 N N p) {br : Index 2 → Nat → Nat → ℝ} (hbr : Blocks m.vertices m.bufferRate N N br)
    {init : Index 2 → Nat → Nat → Tri} (hinit : Blocks m.vertices (if lin then m.initialU else m.initialQ) N N init) {dt : ℝ}
    (hdt : 0 ≤ dt) (hr : 0 ≤ m.params.sinkRate) {fx fy : Quad Tri} {gx gy : Index 2 → Nat → Nat → Tri}
    (hx : Fluxes lin m.vertices N 0 fx gx) (hy : Fluxes lin m.vertices N 1 fy gy) {i : Index 2} {c0 : Arr 2 (ℝ × ℝ)} (hi : LeafAt m.vertices i c0) :
    ∃ B g e, blockUpdate sh lin m s b p0 fx fy dt i = .ok B ∧ Updated lin m N b dt i (f i) (init i) e (br i) (gx i) (gy i) g B := by
  have hN := hm.shaped.pos
  have hlt := hm.shaped.lt
  have hNN : N * N < 2 ^ 31 := hm.shaped.of_le (by omega) (by omega)
  have hlev : i.level ≤ 31 := by have := hm.shaped.depth i c0 hi; have := hm.shaped.small; omega
  obtain ⟨dA, hdA, edA⟩ := at_ok hs.1 hm.areas.1 hi hlev
  obtain ⟨u0, hu0, eu0⟩ := at_ok hs.1 hst.blocks.1 hi hlev
  obtain ⟨Fx, hFx, eFx⟩ := at_ok hs.1 hx.shape hi hlev
  obtain ⟨Fy, hFy, eFy⟩ := at_ok hs.1 hy.shape hi hlev
  have hdA := hm.areas.2 i dA hdA
  have hu0 := hst.blocks.2 i u0 hu0
  obtain ⟨lx, elx, hlx⟩ := (hx.along i Fx hFx).difference (by omega) (by omega)
  obtain ⟨ly, ely, hly⟩ := (hy.along i Fy hFy).difference (by omega) (by omega)
  obtain ⟨S, t, e, eS, hS⟩ := sourceTerms_ok hs hm hst hp hbr hinit hdt hr hi
  obtain ⟨L, eL, hL⟩ := Grid.binaryOp (f := fun x y => gx i (x + 1) y - gx i x y) (g := fun x y => gy i (y + 1) x - gy i y x) hlx hly Tri.add
  have hA := cellSize_pos hm.radius hN i
  obtain ⟨L2, eL2, hL2⟩ := (hL.map (·.mul dt)).binaryOpO hdA (u := divTri) (x := fun x y =>
    (((gx i (x + 1) y - gx i x y).add (gy i (y + 1) x - gy i y x)).mul dt).div (cellSize m.params.domainRadius N i ^ 2)) (fun x _ y _ => by
      unfold divTri
      rw [if_neg (by positivity)])
  obtain ⟨U, eU, hU⟩ := hu0.binaryOp hL2 Tri.sub
  obtain ⟨V, eV, hV⟩ := hU.binaryOp hS.grid Tri.add
  obtain ⟨E, eE, hE⟩ := hV.evaluate hN hN hNN
  refine ⟨(E, t), _, e, ?_, ⟨hE, S, _, hS, hS.grid, fun x _ y _ => rfl⟩⟩
  unfold blockUpdate
  rw [edA, Outcome.bind_ok, eu0, Outcome.bind_ok, eFx, Outcome.bind_ok]
  rw [show Nd.difference ((0 : Fin 2) : Nat) Fx = Nd.difference 0 Fx from rfl] at elx
  rw [show Nd.difference ((1 : Fin 2) : Nat) Fy = Nd.difference 1 Fy from rfl] at ely
  rw [elx, Outcome.bind_ok, eFy, Outcome.bind_ok, ely, Outcome.bind_ok, eS, Outcome.bind_ok, eL, Outcome.bind_ok, eL2, Outcome.bind_ok, eU,
    Outcome.bind_ok, eV, Outcome.bind_ok, eE, Outcome.bind_ok]

end Verif.Binary
