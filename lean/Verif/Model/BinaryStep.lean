import Verif.Model.Binary
import Verif.Model.FluxCorrection
import Verif.Model.Sedov
import Verif.Model.NdOps

/-!
# The time step of the binary program (`subprog_binary_scheme.cpp`, `subprog_binary.cpp`, `subprog_binary_diagnostics.cpp`)

The functions come in pairs: those ending in `_u` conserve linear momentum, those ending in `_q` angular momentum.  They differ in
few places, and are one definition here, with a first argument `lin` that is true for `_u`.  `sh n` is the outcome of `1 << n`.
`double` is `ℝ`, the count of iterations is a rational number, units are left out.  Sums and products of tuples are by component.
The launch policies of the trees (threads) and the messages printed are left out.
-/

namespace Verif.Iso2d.Tri

/-- core_tuple.hpp:148: the negative. -/
noncomputable def neg (x : Tri) : Tri := ⟨-x.a, -x.b, -x.c⟩

noncomputable instance : Add Tri := ⟨add⟩
noncomputable instance : Zero Tri := ⟨⟨0, 0, 0⟩⟩
noncomputable instance : Neg Tri := ⟨neg⟩
noncomputable instance : Sub Tri := ⟨sub⟩

noncomputable instance : AddCommGroup Tri where
  nsmul := nsmulRec
  zsmul := zsmulRec
  add_assoc x y z := Tri.ext (add_assoc _ _ _) (add_assoc _ _ _) (add_assoc _ _ _)
  zero_add x := Tri.ext (zero_add _) (zero_add _) (zero_add _)
  add_zero x := Tri.ext (add_zero _) (add_zero _) (add_zero _)
  neg_add_cancel x := Tri.ext (neg_add_cancel _) (neg_add_cancel _) (neg_add_cancel _)
  add_comm x y := Tri.ext (add_comm _ _) (add_comm _ _) (add_comm _ _)
  sub_eq_add_neg x y := Tri.ext (sub_eq_add_neg _ _) (sub_eq_add_neg _ _) (sub_eq_add_neg _ _)

noncomputable instance : Module ℝ Tri where
  smul k x := x.mul k
  one_smul x := Tri.ext (mul_one _) (mul_one _) (mul_one _)
  mul_smul k l x := Tri.ext (by show x.a * _ = x.a * l * k; rw [mul_comm k, mul_assoc])
    (by show x.b * _ = x.b * l * k; rw [mul_comm k, mul_assoc]) (by show x.c * _ = x.c * l * k; rw [mul_comm k, mul_assoc])
  smul_zero k := Tri.ext (zero_mul _) (zero_mul _) (zero_mul _)
  smul_add k x y := Tri.ext (add_mul _ _ _) (add_mul _ _ _) (add_mul _ _ _)
  add_smul k l x := Tri.ext (mul_add _ _ _) (mul_add _ _ _) (mul_add _ _ _)
  zero_smul x := Tri.ext (mul_zero _) (mul_zero _) (mul_zero _)

noncomputable instance : Inhabited Tri := ⟨⟨0, 0, 0⟩⟩

end Verif.Iso2d.Tri

namespace Verif.Binary

open Verif Verif.Nd Verif.Tree Iso2d TwoBody

/-- subprog_binary.hpp:53-54 `quad_tree_t`. -/
abbrev Quad (α : Type) : Type := Verif.Tree.Tree 2 (Arr 2 α)

/-- subprog_binary.hpp:74-104 `solver_data_t`. -/
structure SolverData where
  params : Params
  recommendedStep : ℝ
  cfl : ℝ
  beginLive : ℝ
  rkOrder : Int
  conserveLinear : Bool
  fixedDt : Bool
  noAccretionForce : Bool
  blockSize : Nat
  vertices : Quad (ℝ × ℝ)
  centers : Quad (ℝ × ℝ)
  areas : Quad ℝ
  initialU : Quad Tri
  initialQ : Quad Tri
  bufferRate : Quad ℝ

/-- subprog_binary.hpp:108-126 `solution_t`. -/
structure Solution where
  time : ℝ
  iteration : ℚ
  u : Quad Tri
  q : Quad Tri
  massAccreted : Fin 2 → ℝ
  angmomAccreted : Fin 2 → ℝ
  torque : Fin 2 → ℝ
  work : Fin 2 → ℝ
  massEjected : ℝ
  angmomEjected : ℝ
  orbitAcc : FullElements
  orbitGrav : FullElements
  orbit : FullElements

/-- subprog_binary_scheme.cpp:20-36 `source_term_total_t`: what is recorded for one of the bodies. -/
@[ext] structure BodyTotals where
  mass : ℝ
  angmom : ℝ
  torque : ℝ
  momentumX : ℝ
  momentumY : ℝ
  forceX : ℝ
  forceY : ℝ
  work : ℝ

/-- subprog_binary_scheme.cpp:20-36 `source_term_total_t`, by body where the code has pairs. -/
@[ext] structure Totals where
  on : Fin 2 → BodyTotals
  massEjected : ℝ
  angmomEjected : ℝ

/-- subprog_binary_scheme.cpp:65-79 `operator+`. -/
noncomputable def BodyTotals.add (x y : BodyTotals) : BodyTotals :=
  ⟨x.mass + y.mass, x.angmom + y.angmom, x.torque + y.torque, x.momentumX + y.momentumX, x.momentumY + y.momentumY,
    x.forceX + y.forceX, x.forceY + y.forceY, x.work + y.work⟩

/-- subprog_binary_scheme.cpp:65-79 `operator+`. -/
noncomputable instance : Add Totals :=
  ⟨fun x y => ⟨fun k => (x.on k).add (y.on k), x.massEjected + y.massEjected, x.angmomEjected + y.angmomEjected⟩⟩

/-- subprog_binary_scheme.cpp:20-36: the default value. -/
noncomputable instance : Zero Totals := ⟨⟨fun _ => ⟨0, 0, 0, 0, 0, 0, 0, 0⟩, 0, 0⟩⟩

/-- The body `k` (`[0]` and `[1]` in the code are `body1` and `body2`). -/
def body (b : State) (k : Fin 2) : PointMass :=
  match k with
  | 0 => b.body1
  | 1 => b.body2

/-- The quantities that are evolved. -/
def cons (lin : Bool) (s : Solution) : Quad Tri := if lin then s.u else s.q

/-- A default constructed tree of arrays. -/
def emptyTree : Quad Tri := .leaf ⟨fun _ => 0, fun _ => .ub⟩

variable (sh : Nat → Outcome Nat)

/-! ### Primitive quantities, guard cells, gradients -/

open Classical in
/-- physics_iso2d.hpp:351-390 `recover_primitive`, with the divisors checked. -/
noncomputable def recoverCell (lin : Bool) (u : Tri) (x : ℝ × ℝ) : Outcome Tri :=
  if u.a = 0 then .ub
  else if lin then recover u
  else if x.1 * x.1 + x.2 * x.2 = 0 then .ub
  else recoverAngmom u x.1 x.2

/-- subprog_binary_scheme.cpp:1075-1101 `recover_primitive`.  For `lin` the code does not read the positions. -/
noncomputable def recoverPrimitive (lin : Bool) (m : SolverData) (s : Solution) : Outcome (Quad Tri) :=
  if lin then Tree.mapM (fun U => evaluate (U.mapO fun u => recoverCell true u (0, 0))) s.u
  else (s.q.pair m.centers).bind (Tree.mapM fun QX => (binaryOpO (recoverCell false) QX.1 QX.2).bind evaluate)

/-- mesh_tree_operators.hpp:223-252 `get_cell_block` with an operator applied to the block that is found.  The code calls itself
with `to_shared` for the children. -/
noncomputable def getCellBlockWith (post : Arr 2 Tri → Outcome (Arr 2 Tri)) (t : Quad Tri) (fuel : Nat) (i : Index 2) : Outcome (Arr 2 Tri) :=
  rethrow (
    (t.contains sh i).bind fun b =>
    if b then (t.at' sh i).bind post else
    (t.contains sh i.parentIndex).bind fun b =>
    if b then
      (i.relativeToParent.orthant sh).bind fun o =>
      (t.at' sh i.parentIndex).bind fun B =>
      (refineCells (toIntegral o) B).bind post
    else
      (childBlocks (getCellBlock sh ℝ t fuel) i).bind fun c =>
      (combineCells c).bind fun B =>
      (coarsenCells ℝ B).bind post)

/-- subprog_binary_scheme.cpp:133-142 `extend` by one guard cell: one block.  `fuel` bounds the nested calls of
`get_cell_block`. -/
noncomputable def extendBlock (fuel : Nat) (t : Quad Tri) (a : Fin 2) (i : Index 2) : Outcome (Arr 2 Tri) :=
  (t.at' sh i).bind fun C =>
  (i.prevOn sh a).bind fun p =>
  (getCellBlockWith sh (fun A => (selectFinal 1 a A).bind evaluate) t fuel p).bind fun L =>
  (i.nextOn sh a).bind fun n =>
  (getCellBlockWith sh (fun A => (selectFirst 1 a A).bind evaluate) t fuel n).bind fun R =>
  (Nd.concat a C L).bind fun LC =>
  (Nd.concat a R LC).bind evaluate

/-- subprog_binary_scheme.cpp:133-142 `extend`. -/
noncomputable def extend (fuel : Nat) (t : Quad Tri) (a : Fin 2) : Outcome (Quad Tri) :=
  Tree.mapM (extendBlock sh fuel t a) (t.indexes ⟨0, fun _ => 0⟩)

open Classical in
/-- subprog_binary_scheme.cpp:274, 302, 793, 798: the cell size on the level of a block. -/
noncomputable def blockSpacing (m : SolverData) (i : Index 2) : Outcome ℝ :=
  (sh i.level).bind fun k =>
  if m.blockSize = 0 ∨ k = 0 then .ub else .ok (2 * m.params.domainRadius / m.blockSize / k)

open Classical in
/-- subprog_binary_scheme.cpp:148-154, 796-800: the derivatives along axis `a` in a block with guard cells. -/
noncomputable def gradientBlock (m : SolverData) (z : Fin 9 → Bool) (theta : ℝ) (a : Fin 2) (i : Index 2) (P : Arr 2 Tri) :
    Outcome (Arr 2 Tri) :=
  (blockSpacing sh m i).bind fun h =>
  if h = 0 then .ub else
  (zipAdjacent3 a P).bind fun Z => evaluate (Z.map fun p => gradient z theta h p.1 p.2.1 p.2.2)

/-- subprog_binary_scheme.cpp:808-809. -/
noncomputable def gradients (m : SolverData) (z : Fin 9 → Bool) (theta : ℝ) (a : Fin 2) (t : Quad Tri) : Outcome (Quad Tri) :=
  t.pairIndexes.bind (Tree.mapM fun p => gradientBlock sh m z theta a p.1 p.2)

/-! ### Fluxes -/

/-- A component of a position. -/
def component (a : Fin 2) (x : ℝ × ℝ) : ℝ :=
  match a with
  | 0 => x.1
  | 1 => x.2

/-- subprog_binary_scheme.cpp:472-516 `block_fluxes_u`, 518-562 `block_fluxes_q`: the fluxes through the faces across axis `a`.
`pe`, `ge`, `he` are primitives, derivatives along `a`, and derivatives along the other axis, all extended on axis `a`.  Blocks
that are looked up but not used are left out. -/
noncomputable def axisFluxes (lin : Bool) (m : SolverData) (b : State) (a : Fin 2) (pe ge he : Quad Tri) (i : Index 2) :
    Outcome (Arr 2 Tri) :=
  (m.vertices.at' sh i).bind fun xv =>
  (difference (other a) (xv.map (component (other a)))).bind fun d =>
  (midpoint (1 / 2, 1 / 2) (other a) xv).bind fun xf =>
  (pe.at' sh i).bind fun P =>
  (zipAdjacent2 a P).bind fun PP =>
  (ge.at' sh i).bind fun G =>
  (zipAdjacent2 a G).bind fun GG =>
  (he.at' sh i).bind fun H =>
  (zipAdjacent2 a H).bind fun HH =>
  (binaryOp Prod.mk xf PP).bind fun A =>
  (binaryOp Prod.mk GG HH).bind fun B =>
  (binaryOp Prod.mk A B).bind fun Z =>
  (blockSpacing sh m i).bind fun h =>
  (binaryOp Tri.mul (Z.mapO fun w =>
    if lin then intercellFluxU m.params a b h w.1.1 w.1.2 w.2.1 w.2.2
    else intercellFluxQ m.params a b h w.1.1 w.1.2 w.2.1 w.2.2) d).bind evaluate

/-- subprog_binary_scheme.cpp:485-515, 531-561: both fluxes of a block. -/
noncomputable def blockFluxes (lin : Bool) (m : SolverData) (b : State) (px py gxx gxy gyx gyy : Quad Tri) (i : Index 2) :
    Outcome (Arr 2 Tri × Arr 2 Tri) :=
  (axisFluxes sh lin m b 0 px gxx gyx i).bind fun fx =>
  (axisFluxes sh lin m b 1 py gyy gxy i).bind fun fy => .ok (fx, fy)

/-- subprog_binary_scheme.cpp:805-823, 921-939: the primitives, the state of the binary, and the corrected fluxes. -/
noncomputable def stepFluxes (fuel : Nat) (z : Fin 9 → Bool) (lin : Bool) (m : SolverData) (s : Solution) (safe : Bool) :
    Outcome (Quad Tri × State × Quad Tri × Quad Tri) :=
  let theta := if safe then 0 else m.params.plmTheta
  (recoverPrimitive lin m s).bind fun p0 =>
  (extend sh fuel p0 0).bind fun px =>
  (extend sh fuel p0 1).bind fun py =>
  (gradients sh m z theta 0 px).bind fun gx =>
  (gradients sh m z theta 1 py).bind fun gy =>
  (extend sh fuel gx 0).bind fun gxx =>
  (extend sh fuel gx 1).bind fun gxy =>
  (extend sh fuel gy 0).bind fun gyx =>
  (extend sh fuel gy 1).bind fun gyy =>
  (fullTwoBodyState s.orbit s.time).bind fun b =>
  (Tree.mapM (blockFluxes sh lin m b px py gxx gxy gyx gyy) (p0.indexes ⟨0, fun _ => 0⟩)).bind fun f =>
  (correctFluxes sh 0 (f.map Prod.fst)).bind fun fx =>
  (correctFluxes sh 1 (f.map Prod.snd)).bind fun fy =>
  .ok (p0, b, fx, fy)

/-! ### Source terms -/

/-- subprog_binary_scheme.cpp:377-378, 429-430: the force of a body on the gas, per area. -/
noncomputable def gravForce (m : SolverData) (b : PointMass) (xc : Arr 2 (ℝ × ℝ)) (sigma : Arr 2 ℝ) : Outcome (Arr 2 (ℝ × ℝ)) :=
  (binaryOp (fun v s => (v.1 * s, v.2 * s)) (xc.mapO (gravVdot m.params (position b) b.mass)) sigma).bind evaluate

/-- subprog_binary_scheme.cpp:380-381, 432-433. -/
noncomputable def gravSource (lin : Bool) (xc fg : Arr 2 (ℝ × ℝ)) (dt : ℝ) : Outcome (Arr 2 Tri) :=
  (binaryOp (fun x f => if lin then forceToSourceU f else forceToSourceQ x f) xc fg).bind fun A => evaluate (A.map (·.mul dt))

/-- subprog_binary_scheme.cpp:382-383, 434-435. -/
noncomputable def sinkSource (m : SolverData) (b : PointMass) (xc : Arr 2 (ℝ × ℝ)) (u0 : Arr 2 Tri) (dt : ℝ) : Outcome (Arr 2 Tri) :=
  (binaryOp (fun u r => u.mul r) (u0.map Tri.neg) (xc.mapO (sinkRate m.params (position b)))).bind fun A => evaluate (A.map (·.mul dt))

/-- subprog_binary_scheme.cpp:384, 436. -/
noncomputable def bufferSource (init u0 : Arr 2 Tri) (br : Arr 2 ℝ) (dt : ℝ) : Outcome (Arr 2 Tri) :=
  (binaryOp Tri.sub init u0).bind fun A => (binaryOp Tri.mul A br).bind fun A => evaluate (A.map (·.mul dt))

open Classical in
/-- subprog_binary_scheme.cpp:385-388: the density floor.  There is no time step in it. -/
noncomputable def floorCell (floor : ℝ) (u : Tri) : Tri := (u.mul (1 / 100)).mul (if u.a < floor then 1 else 0)

open Classical in
/-- subprog_binary_scheme.cpp:437-442: the geometrical source term of `_q`, in one cell. -/
noncomputable def geomCell (m : SolverData) (b : State) (dt : ℝ) (p : Tri) (x : ℝ × ℝ) : Outcome Tri :=
  let sr2 := m.params.gstSuppr * m.params.gstSuppr
  if sr2 = 0 then .ub else
  let ramp := 1 - Real.exp (-(x.1 * x.1 + x.2 * x.2) / sr2)
  (cs2At m.params b x).bind fun cs2 => .ok (((sourceAngmom p cs2).mul ramp).mul dt)

/-- subprog_binary_scheme.cpp:391-406, 448-463: a density is multiplied by the areas and added up. -/
noncomputable def integral (f dA : Arr 2 ℝ) : Outcome ℝ := (binaryOp (· * ·) f dA).bind Nd.sum

/-- subprog_binary_scheme.cpp:355-361 and 393-397; `component<2>` in 450-455. -/
noncomputable def angmomDensity (lin : Bool) (s : Arr 2 Tri) (xc : Arr 2 (ℝ × ℝ)) : Outcome (Arr 2 ℝ) :=
  if lin then binaryOp (fun u x => angularMomentum u x.1 x.2) s xc else .ok (s.map Tri.c)

open Classical in
/-- subprog_binary_scheme.cpp:403-406; 444-445 and 460-463. -/
noncomputable def momentumDensity (lin : Bool) (s : Arr 2 Tri) (xc : Arr 2 (ℝ × ℝ)) : Outcome (Arr 2 (ℝ × ℝ)) :=
  if lin then .ok (s.map fun u => (u.b, u.c))
  else (binaryOpO (fun q x => if x.1 * x.1 + x.2 * x.2 = 0 then .ub
    else .ok ((angmomToConserved q x.1 x.2).b, (angmomToConserved q x.1 x.2).c)) s xc).bind evaluate

open Classical in
/-- subprog_binary_scheme.cpp:363-374 `work`; it is not recorded in `_q`. -/
noncomputable def workOn (lin : Bool) (b : PointMass) (du : Tri) : Outcome ℝ :=
  if lin then
    let px0 := b.vx * b.mass
    let py0 := b.vy * b.mass
    let M1 := b.mass + du.a
    let px1 := px0 + du.b
    let py1 := py0 + du.c
    if M1 = 0 ∨ b.mass = 0 then .ub
    else .ok (((px1 * px1 + py1 * py1) / M1 - (px0 * px0 + py0 * py0) / b.mass) * (1 / 2))
  else .ok 0

/-- subprog_binary_scheme.cpp:391-408, 448-463: what is recorded for one body. -/
noncomputable def bodyTotals (lin : Bool) (b : PointMass) (xc : Arr 2 (ℝ × ℝ)) (dA : Arr 2 ℝ) (fg : Arr 2 (ℝ × ℝ)) (grav sink : Arr 2 Tri)
    (dt : ℝ) : Outcome BodyTotals :=
  (integral (sink.map Tri.a) dA).bind fun mass =>
  (angmomDensity lin sink xc).bind fun l =>
  (integral l dA).bind fun angmom =>
  (angmomDensity lin grav xc).bind fun l =>
  (integral l dA).bind fun torque =>
  (integral (fg.map fun f => f.1 * dt) dA).bind fun fx =>
  (integral (fg.map fun f => f.2 * dt) dA).bind fun fy =>
  (momentumDensity lin sink xc).bind fun p =>
  (integral (p.map Prod.fst) dA).bind fun px =>
  (integral (p.map Prod.snd) dA).bind fun py =>
  (binaryOp Tri.mul sink dA).bind fun S =>
  (Nd.sum S).bind fun du =>
  (workOn lin b (Tri.neg du)).bind fun work =>
  .ok ⟨-mass, -angmom, -torque, -px, -py, -fx, -fy, work⟩

/-- subprog_binary_scheme.cpp:345-411 `source_terms_u`, 417-466 `source_terms_q`. -/
noncomputable def sourceTerms (lin : Bool) (m : SolverData) (s : Solution) (b : State) (p0 : Quad Tri) (i : Index 2) (dt : ℝ) :
    Outcome (Arr 2 Tri × Totals) :=
  (m.centers.at' sh i).bind fun xc =>
  (m.areas.at' sh i).bind fun dA =>
  (m.bufferRate.at' sh i).bind fun br =>
  ((cons lin s).at' sh i).bind fun u0 =>
  (gravForce m b.body1 xc (u0.map Tri.a)).bind fun fg1 =>
  (gravForce m b.body2 xc (u0.map Tri.a)).bind fun fg2 =>
  (gravSource lin xc fg1 dt).bind fun grav1 =>
  (gravSource lin xc fg2 dt).bind fun grav2 =>
  (sinkSource m b.body1 xc u0 dt).bind fun sink1 =>
  (sinkSource m b.body2 xc u0 dt).bind fun sink2 =>
  ((if lin then m.initialU else m.initialQ).at' sh i).bind fun init =>
  (bufferSource init u0 br dt).bind fun buffer =>
  (if lin then .ok (u0.map (floorCell m.params.densityFloor))
    else (p0.at' sh i).bind fun p => (binaryOpO (geomCell m b dt) p xc).bind evaluate).bind fun extra =>
  (bodyTotals lin b.body1 xc dA fg1 grav1 sink1 dt).bind fun t1 =>
  (bodyTotals lin b.body2 xc dA fg2 grav2 sink2 dt).bind fun t2 =>
  (integral (buffer.map Tri.a) dA).bind fun massEjected =>
  (angmomDensity lin buffer xc).bind fun l =>
  (integral l dA).bind fun angmomEjected =>
  (binaryOp Tri.add grav1 grav2).bind fun S =>
  (binaryOp Tri.add S sink1).bind fun S =>
  (binaryOp Tri.add S sink2).bind fun S =>
  (binaryOp Tri.add S buffer).bind fun S =>
  (binaryOp Tri.add S extra).bind fun S =>
  (evaluate S).bind fun S =>
  .ok (S, ⟨![t1, t2], -massEjected, -angmomEjected⟩)

/-! ### The step -/

open Classical in
/-- core_tuple.hpp:124 with the divisor checked. -/
noncomputable def divTri (x : Tri) (y : ℝ) : Outcome Tri := if y = 0 then .ub else .ok (x.div y)

/-- subprog_binary_scheme.cpp:568-587 `block_update_u`, 589-608 `block_update_q`. -/
noncomputable def blockUpdate (lin : Bool) (m : SolverData) (s : Solution) (b : State) (p0 fx fy : Quad Tri) (dt : ℝ) (i : Index 2) :
    Outcome (Arr 2 Tri × Totals) :=
  (m.areas.at' sh i).bind fun dA =>
  ((cons lin s).at' sh i).bind fun u0 =>
  (fx.at' sh i).bind fun Fx =>
  (difference 0 Fx).bind fun lx =>
  (fy.at' sh i).bind fun Fy =>
  (difference 1 Fy).bind fun ly =>
  (sourceTerms sh lin m s b p0 i dt).bind fun src =>
  (binaryOp Tri.add lx ly).bind fun L =>
  (binaryOpO divTri (L.map (·.mul dt)) dA).bind fun L =>
  (binaryOp Tri.sub u0 L).bind fun u1 =>
  (binaryOp Tri.add u1 src.1).bind fun u1 =>
  (evaluate u1).bind fun u1 =>
  .ok (u1, src.2)

/-- subprog_binary_scheme.cpp:792-830, 908-946: the updated quantities, the totals, and the state of the binary. -/
noncomputable def stepCore (fuel : Nat) (z : Fin 9 → Bool) (lin : Bool) (m : SolverData) (s : Solution) (dt : ℝ) (safe : Bool) :
    Outcome (Quad Tri × Totals × State) :=
  (stepFluxes sh fuel z lin m s safe).bind fun r =>
  (Tree.mapM (blockUpdate sh lin m s r.2.1 r.1 r.2.2.1 r.2.2.2 dt) (r.1.indexes ⟨0, fun _ => 0⟩)).bind fun res =>
  .ok (res.map Prod.fst, (res.map Prod.snd).sum, r.2.1)

open Classical in
/-- subprog_binary_scheme.cpp:832-864, 948-980: a body after accretion. -/
noncomputable def bodyAcc (m : SolverData) (b : PointMass) (t : BodyTotals) : Outcome PointMass :=
  if b.mass + t.mass = 0 then .ub
  else .ok ⟨b.mass + t.mass, b.x, b.y,
    if m.noAccretionForce then b.vx else (b.mass * b.vx + t.momentumX) / (b.mass + t.mass),
    if m.noAccretionForce then b.vy else (b.mass * b.vy + t.momentumY) / (b.mass + t.mass)⟩

open Classical in
/-- subprog_binary_scheme.cpp:866-880, 982-996: a body after the pull of the gas. -/
noncomputable def bodyGrv (b : PointMass) (t : BodyTotals) : Outcome PointMass :=
  if b.mass = 0 then .ub else .ok ⟨b.mass, b.x, b.y, b.vx + t.forceX / b.mass, b.vy + t.forceY / b.mass⟩

/-- subprog_binary_scheme.cpp:832-885, 948-1001: the elements of the orbit after accretion, and after the pull of the gas. -/
noncomputable def stepOrbits (m : SolverData) (s : Solution) (b : State) (t : Totals) : Outcome (FullElements × FullElements) :=
  (bodyAcc m b.body1 (t.on 0)).bind fun a1 =>
  (bodyAcc m b.body2 (t.on 1)).bind fun a2 =>
  (bodyGrv b.body1 (t.on 0)).bind fun g1 =>
  (bodyGrv b.body2 (t.on 1)).bind fun g2 =>
  (computeOrbitalElements ⟨a1, a2⟩ s.time).bind fun acc =>
  (computeOrbitalElements ⟨g1, g2⟩ s.time).bind fun grv =>
  .ok (acc, grv)

open Classical in
/-- subprog_binary_scheme.cpp:730-745, 762-777: whether some density of a block is negative. -/
noncomputable def anyNegative (m : SolverData) (t : Quad Tri) (i : Index 2) : Outcome Bool :=
  (m.centers.at' sh i).bind fun X =>
  (t.at' sh i).bind fun U =>
  (binaryOp Prod.mk X U).bind fun Z =>
  (elements Z).map fun l => l.any fun p => decide (p.2.a < 0)

/-- subprog_binary_scheme.cpp:726-752 `validate_u`, 758-784 `validate_q`. -/
noncomputable def validate (lin : Bool) (m : SolverData) (s : Solution) : Outcome Solution :=
  (Tree.mapM (anyNegative sh m (cons lin s)) ((cons lin s).indexes ⟨0, fun _ => 0⟩)).bind fun f =>
  if f.sink.any id then .throws .runtimeError else .ok s

open Classical in
/-- subprog_binary_scheme.cpp:790-904 `advance_u`, 906-1020 `advance_q`. -/
noncomputable def advanceMode (fuel : Nat) (z : Fin 9 → Bool) (lin : Bool) (m : SolverData) (s : Solution) (dt : ℝ) (safe : Bool) :
    Outcome Solution :=
  (stepCore sh fuel z lin m s dt safe).bind fun r =>
  (stepOrbits m s r.2.2 r.2.1).bind fun E =>
  (TwoBody.diff s.orbit E.1).bind fun dacc =>
  (TwoBody.diff s.orbit E.2).bind fun dgrv =>
  validate sh lin m
    { time := s.time + dt
      iteration := s.iteration + 1
      u := if lin then r.1 else emptyTree
      q := if lin then emptyTree else r.1
      massAccreted := fun k => s.massAccreted k + (r.2.1.on k).mass
      angmomAccreted := fun k => s.angmomAccreted k + (r.2.1.on k).angmom
      torque := fun k => s.torque k + (r.2.1.on k).torque
      work := fun k => s.work k + (r.2.1.on k).work
      massEjected := s.massEjected + r.2.1.massEjected
      angmomEjected := s.angmomEjected + r.2.1.angmomEjected
      orbitAcc := s.orbitAcc.add dacc
      orbitGrav := s.orbitGrav.add dgrv
      orbit := s.orbit.add (((dacc.add dgrv).add (diffCm s.orbit dt)).scale (if s.time > m.beginLive then 1 else 0)) }

/-- subprog_binary_scheme.cpp:1022-1027 `advance`. -/
noncomputable def advance (fuel : Nat) (z : Fin 9 → Bool) (m : SolverData) (s : Solution) (dt : ℝ) (safe : Bool) : Outcome Solution :=
  advanceMode sh fuel z m.conserveLinear m s dt safe

/-- subprog_binary_scheme.cpp:1038-1039: the sum of two trees of arrays. -/
noncomputable def addTrees (t u : Quad Tri) : Outcome (Quad Tri) :=
  (t.pair u).bind (Tree.mapM fun p => (binaryOp Tri.add p.1 p.2).bind evaluate)

/-- subprog_binary_scheme.cpp:1057-1058: a tree of arrays times a number. -/
noncomputable def scaleTree (t : Quad Tri) (k : ℝ) : Outcome (Quad Tri) := Tree.mapM (fun A => evaluate (A.map (·.mul k))) t

/-- subprog_binary_scheme.cpp:1033-1050 `operator+`. -/
noncomputable def Solution.add (s r : Solution) : Outcome Solution :=
  (addTrees s.u r.u).bind fun u =>
  (addTrees s.q r.q).bind fun q =>
  .ok ⟨s.time + r.time, s.iteration + r.iteration, u, q, fun k => s.massAccreted k + r.massAccreted k,
    fun k => s.angmomAccreted k + r.angmomAccreted k, fun k => s.torque k + r.torque k, fun k => s.work k + r.work k,
    s.massEjected + r.massEjected, s.angmomEjected + r.angmomEjected, s.orbitAcc.add r.orbitAcc, s.orbitGrav.add r.orbitGrav,
    s.orbit.add r.orbit⟩

/-- subprog_binary_scheme.cpp:1052-1069 `operator*`. -/
noncomputable def Solution.scale (s : Solution) (k : ℚ) : Outcome Solution :=
  (scaleTree s.u k).bind fun u =>
  (scaleTree s.q k).bind fun q =>
  .ok ⟨s.time * k, s.iteration * k, u, q, fun j => s.massAccreted j * k,
    fun j => s.angmomAccreted j * k, fun j => s.torque j * k, fun j => s.work j * k,
    s.massEjected * k, s.angmomEjected * k, s.orbitAcc.scale k, s.orbitGrav.scale k, s.orbit.scale k⟩

/-- subprog_binary.cpp:260-279: one attempt to make a step. -/
noncomputable def attempt (fuel : Nat) (z : Fin 9 → Bool) (m : SolverData) (s : Solution) (dt : ℝ) (safe : Bool) : Outcome Solution :=
  if m.rkOrder = 1 then advance sh fuel z m s dt safe
  else if m.rkOrder = 2 then
    (advance sh fuel z m s dt safe).bind fun s1 =>
    (advance sh fuel z m s1 dt safe).bind fun s2 =>
    (s.scale (1 / 2)).bind fun h0 =>
    (s2.scale (1 - 1 / 2)).bind fun h2 =>
    h0.add h2
  else .throws .invalidArgument

open Classical in
/-- subprog_binary_scheme.cpp:1107-1126 `maximum_timestep`: one block. -/
noncomputable def blockTimestep (m : SolverData) (b : State) (p0 : Quad Tri) (i : Index 2) : Outcome ℝ :=
  (m.centers.at' sh i).bind fun xc =>
  (p0.at' sh i).bind fun pc =>
  (blockSpacing sh m i).bind fun h =>
  (binaryOpO (fun p x => (cs2At m.params b x).bind fun c => if c < 0 then .ub else .ok (maxWavespeed p c)) pc xc).bind fun W =>
  (minBy (fun x y => decide (x > y)) 0 W).bind fun w =>
  if w = 0 then .ub else .ok (h / w)

open Classical in
/-- subprog_binary_scheme.cpp:1107-1126 `maximum_timestep`.  The indexes are those of `conserved_u`, in both modes. -/
noncomputable def maximumTimestep (m : SolverData) (s : Solution) : Outcome ℝ :=
  (recoverPrimitive m.conserveLinear m s).bind fun p0 =>
  (fullTwoBodyState s.orbit s.time).bind fun b =>
  (Tree.mapM (blockTimestep sh m b p0) (s.u.indexes ⟨0, fun _ => 0⟩)).map fun t => t.min

/-- subprog_binary.cpp:258-293 `next_solution`. -/
noncomputable def nextSolution (fuel : Nat) (z : Fin 9 → Bool) (m : SolverData) (s : Solution) : Outcome Solution :=
  (if m.fixedDt then .ok m.recommendedStep else (maximumTimestep sh m s).map fun dt => m.cfl * dt).bind fun dt =>
  match attempt sh fuel z m s dt false with
  | .throws _ => attempt sh fuel z m s (dt * (1 / 10)) true
  | r => r

/-! ### Diagnostics -/

/-- subprog_binary_diagnostics.cpp:19-27 `disk_mass`. -/
noncomputable def diskMass (m : SolverData) (s : Solution) : Outcome ℝ :=
  ((cons m.conserveLinear s).pair m.areas).bind fun p =>
  (Tree.mapM (fun q : Arr 2 Tri × Arr 2 ℝ => (binaryOp (· * ·) (q.1.map Tri.a) q.2).bind Nd.sum) p).map Tree.sum

/-- subprog_binary_diagnostics.cpp:29-42 `disk_angular_momentum`. -/
noncomputable def diskAngmom (m : SolverData) (s : Solution) : Outcome ℝ :=
  if m.conserveLinear then
    (s.u.pair m.centers).bind fun p =>
    (Tree.mapM (fun q : Arr 2 Tri × Arr 2 (ℝ × ℝ) => binaryOp (fun u x => angularMomentum u x.1 x.2) q.1 q.2) p).bind fun l =>
    (l.pair m.areas).bind fun p =>
    (Tree.mapM (fun q : Arr 2 ℝ × Arr 2 ℝ => (binaryOp (· * ·) q.1 q.2).bind Nd.sum) p).map Tree.sum
  else
    (s.q.pair m.areas).bind fun p =>
    (Tree.mapM (fun q : Arr 2 Tri × Arr 2 ℝ => (binaryOp Tri.mul q.1 q.2).bind fun A => Nd.sum (A.map Tri.c)) p).map Tree.sum

end Verif.Binary
