import Verif.Model.BinarySetup
import Verif.Model.Loop

/-!
# The sandbox for adaptive meshes (`subprog_amrsand.cpp`)

`sh n` is the outcome of `1 << n`.  `double` is `ℝ`, units are left out.  The code leaves most arrays unevaluated until the end of the
step, here each is evaluated in turn: entries are the same, and so is the outcome where none fails.  `fuel` bounds the nested calls of
`get_cell_block`, and the rounds of `ensure_valid_quadtree`.
-/

namespace Verif.AmrSand

open Verif Verif.Nd Verif.Tree Verif.Binary

/-- subprog_amrsand.cpp:56-68 `solution_state_t`. -/
structure Solution where
  iteration : ℚ
  time : ℝ
  vertices : Quad (ℝ × ℝ)
  conserved : Quad ℝ

variable (sh : Nat → Outcome Nat)

/-! ### Start -/

open Classical in
/-- subprog_amrsand.cpp:147: the rule of refinement.  At level zero the code divides by zero, which gives infinity. -/
noncomputable def predicate (level : Nat) (radius : ℝ) : Bool := decide (level = 0 ∨ radius < 1 / level)

/-- subprog_amrsand.cpp:156-162: the cells of a block at the start. -/
noncomputable def initialBlock (B : Arr 2 (ℝ × ℝ)) : Outcome (Arr 2 ℝ) :=
  (midpoint ((1 / 2, 1 / 2) : ℝ × ℝ) 0 B).bind fun X =>
  (midpoint ((1 / 2, 1 / 2) : ℝ × ℝ) 1 X).bind fun X =>
  evaluate (X.map fun p => Real.exp (-(p.1 * p.1 + p.2 * p.2) / (25 / 1000)))

/-- subprog_amrsand.cpp:144-164 `create_solution_state`. -/
noncomputable def createSolution (blockSize depth fuel : Nat) : Outcome Solution :=
  (createVertexQuadtree sh predicate blockSize blockSize depth fuel).bind fun V =>
  (Tree.mapM initialBlock V).bind fun u => .ok ⟨0, 0, V, u⟩

/-! ### Time step -/

open Classical in
/-- subprog_amrsand.cpp:248-249. -/
noncomputable def timeStep (s : Solution) : Outcome ℝ :=
  let n := max (s.vertices.front.shape 0) (s.vertices.front.shape 1)
  (sh s.vertices.depth).bind fun k => if n = 0 ∨ k = 0 then .ub else .ok (2 / n / k)

/-- subprog_amrsand.cpp:257-263: a block with a layer of cells of its neighbours on axis `a`. -/
noncomputable def extendBlock (fuel : Nat) (t : Quad ℝ) (a : Fin 2) (i : Index 2) : Outcome (Arr 2 ℝ) :=
  (getCellBlock sh ℝ t fuel i).bind fun C =>
  (i.prevOn sh a).bind fun p =>
  (getCellBlock sh ℝ t fuel p).bind fun P =>
  (selectFinal 1 a P).bind fun L =>
  (i.nextOn sh a).bind fun n =>
  (getCellBlock sh ℝ t fuel n).bind fun Q =>
  (selectFirst 1 a Q).bind fun R =>
  (Nd.concat a C L).bind fun LC =>
  Nd.concat a R LC

/-- subprog_amrsand.cpp:255-265 `extend`. -/
noncomputable def extend (fuel : Nat) (t : Quad ℝ) (a : Fin 2) : Outcome (Quad ℝ) :=
  Tree.mapM (extendBlock sh fuel t a) (t.indexes ⟨0, fun _ => 0⟩)

/-- subprog_amrsand.cpp:266-271 `area_from_vertices`, and 288. -/
noncomputable def areaFromVertices (B : Arr 2 (ℝ × ℝ)) : Outcome (Arr 2 ℝ) :=
  (difference 0 (B.map Prod.fst)).bind fun dx =>
  (midpoint (1 / 2) 1 dx).bind fun dx =>
  (difference 1 (B.map Prod.snd)).bind fun dy =>
  (midpoint (1 / 2) 0 dy).bind fun dy =>
  (binaryOp (· * ·) dx dy).bind evaluate

/-- subprog_amrsand.cpp:272-278 `spacing_on_axis`, and 289-290. -/
noncomputable def spacing (a : Fin 2) (B : Arr 2 (ℝ × ℝ)) : Outcome (Arr 2 ℝ) :=
  (difference a (B.map (component a))).bind evaluate

/-- subprog_amrsand.cpp:279-285 `flux_from_conserved_density`. -/
noncomputable def flux (a : Fin 2) (U : Arr 2 ℝ) : Outcome (Arr 2 ℝ) := selectAxis a 0 1 1 true (U.map (· * (1 / 2)))

/-- subprog_amrsand.cpp:292-295: the rate of change due to the fluxes along axis `a`.  These are multiplied by the cell size along
the other axis. -/
noncomputable def inflow (fuel : Nat) (s : Solution) (a : Fin 2) : Outcome (Quad ℝ) :=
  (extend sh fuel s.conserved a).bind fun E =>
  (Tree.mapM (flux a) E).bind fun F =>
  (Tree.mapM (spacing (other a)) s.vertices).bind fun S =>
  (F.pair S).bind fun P =>
  (Tree.mapM (fun p => binaryOp (· * ·) p.1 p.2) P).bind fun G =>
  (Tree.mapM (difference a) G).map fun G => G.map fun A => A.map (-·)

open Classical in
/-- subprog_amrsand.cpp:246-304 `next_solution`. -/
noncomputable def nextSolution (fuel : Nat) (s : Solution) : Outcome Solution :=
  (timeStep sh s).bind fun dt =>
  (Tree.mapM areaFromVertices s.vertices).bind fun dA =>
  (inflow sh fuel s 0).bind fun lx =>
  (inflow sh fuel s 1).bind fun ly =>
  (lx.pair ly).bind fun P =>
  (Tree.mapM (fun p => (binaryOp (· + ·) p.1 p.2).map fun A => A.map (· * dt)) P).bind fun L =>
  (L.pair dA).bind fun P =>
  (Tree.mapM (fun p => binaryOpO (fun x d => if d = 0 then .ub else .ok (x / d)) p.1 p.2) P).bind fun dU =>
  (s.conserved.pair dU).bind fun P =>
  (Tree.mapM (fun p => (binaryOp (· + ·) p.1 p.2).bind evaluate) P).bind fun u =>
  .ok ⟨s.iteration + 1, s.time + dt, s.vertices, u⟩

open Classical in
/-- subprog_amrsand.cpp:224-227 `simulation_should_continue` and the loop of 331-368 `run_main`.  Schedule, output, and messages are
left out. -/
noncomputable def run (fuel : Nat) (tfinal : ℝ) (s : Solution) : Outcome Solution :=
  Loop.whileLoop (fun s => if s.time < tfinal then (nextSolution sh fuel s).map .inl else .ok (.inr s)) s

end Verif.AmrSand
