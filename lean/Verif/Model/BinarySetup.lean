import Verif.Model.BinaryStep
import Verif.Model.Quadtree
import Mathlib.Analysis.SpecialFunctions.Trigonometric.DerivHyp
import Mathlib.Analysis.SpecialFunctions.Trigonometric.Basic

/-!
# The initial state and the solver data of the binary program (`subprog_binary.cpp`, `subprog_binary_solver_data.cpp`)

The run configuration is a record of the values that are read from it.  `double` is `ℝ`, units are left out.  A division by zero and the square
root of a negative number are the outcome `ub`.
-/

namespace Verif.Binary

open Verif Verif.Nd Verif.Tree Iso2d TwoBody

/-- subprog_binary.cpp:57-99 `create_config_template`: the values used below.  `block_size` and `depth` are `int` in the code and not negative
here; `focus_factor` and `focus_index` are in the predicate that is an argument of `createVertices`. -/
structure RunConfig where
  domainRadius : ℝ
  blockSize : Nat
  depth : Nat
  softeningRadius : ℝ
  diskRadius : ℝ
  machNumber : ℝ
  diskMass : ℝ
  ambientDensity : ℝ
  mdot : ℝ
  counterRotate : Bool
  separation : ℝ
  massRatio : ℝ
  eccentricity : ℝ
  conserveLinear : Bool
  bufferDampingRate : ℝ
  alphaCutoffRadius : ℝ
  alpha : ℝ
  nu : ℝ
  sinkRate : ℝ
  sinkRadius : ℝ
  sourceTermSoftening : ℝ
  plmTheta : ℝ
  beginLive : ℝ
  axisymmetricCs2 : Bool
  fixedDt : Bool
  rkOrder : Int
  noAccretionForce : Bool
  densityFloor : ℝ
  cflNumber : ℝ
  reconstructMethod : String

variable (sh : Nat → Outcome Nat)

/-- subprog_binary.cpp:115, `s0`. -/
noncomputable def RunConfig.s0 (c : RunConfig) : ℝ := c.diskMass / (170618 / 10000 * c.diskRadius * c.diskRadius)

/-- subprog_binary.cpp:116, `s1`. -/
noncomputable def RunConfig.s1 (c : RunConfig) : ℝ := c.ambientDensity * c.s0

/-- subprog_binary.cpp:118-122, `sigma`. -/
noncomputable def RunConfig.sigma (c : RunConfig) (r : ℝ) : ℝ :=
  let x := r / c.diskRadius
  c.s0 * Real.exp (-(1 / 2) * (x - 1) * (x - 1)) + c.s1

/-- subprog_binary.cpp:124-131, `dp_dr`. -/
noncomputable def RunConfig.dpdr (c : RunConfig) (r : ℝ) : ℝ :=
  let x := r / c.diskRadius
  1 / c.machNumber / c.machNumber / (r + c.softeningRadius) * (x * (1 - x) * (1 - c.s1 / c.sigma r) - 1)

open Classical in
/-- subprog_binary.cpp:105-153 `create_disk_profile`: the primitive variables at a point. -/
noncomputable def diskProfile (c : RunConfig) (p : ℝ × ℝ) : Outcome Tri :=
  let x := p.1
  let y := p.2
  let r := Real.sqrt (x * x + y * y)
  let rs := c.softeningRadius
  if c.diskRadius = 0 ∨ c.machNumber = 0 ∨ r + rs = 0 ∨ c.sigma r = 0 ∨ r = 0 ∨ 1 / (r + rs) + c.dpdr r < 0 then .ub
  else
    let vp := Real.sqrt (1 / (r + rs) + c.dpdr r) * (if c.counterRotate then -1 else 1)
    let vr := -c.mdot / (c.sigma r * 2 * Real.pi * r) * (if r > 2 then 1 else 0)
    .ok ⟨c.sigma r, vr * (x / r) + vp * (-y / r), vr * (y / r) + vp * (x / r)⟩

/-- subprog_binary.cpp:166-184 `create_vertices`.  `pred` is the comparison in line 176, as it comes out in floating point numbers: at level zero
the code divides by the power zero of a positive index, which is zero.  `fuel` is for `ensure_valid_quadtree`. -/
noncomputable def createVertices (pred : Nat → ℝ → Bool) (fuel : Nat) (c : RunConfig) : Outcome (Quad (ℝ × ℝ)) :=
  (createVertexQuadtree sh pred c.blockSize c.blockSize c.depth fuel).bind
    (Tree.mapM fun B => evaluate (B.map fun p => (p.1 * c.domainRadius, p.2 * c.domainRadius)))

/-- subprog_binary.cpp:200, 209, subprog_binary_solver_data.cpp:24-26, 66-68: the centers of the cells of a block. -/
noncomputable def blockCenters (B : Arr 2 (ℝ × ℝ)) : Outcome (Arr 2 (ℝ × ℝ)) :=
  (midpoint ((1 / 2, 1 / 2) : ℝ × ℝ) 0 B).bind (midpoint ((1 / 2, 1 / 2) : ℝ × ℝ) 1)

/-- subprog_binary.cpp:198-205, 207-214: the conserved quantities of a block at the start. -/
noncomputable def initialBlock (lin : Bool) (c : RunConfig) (B : Arr 2 (ℝ × ℝ)) : Outcome (Arr 2 Tri) :=
  (blockCenters B).bind fun X =>
  if lin then evaluate ((X.mapO (diskProfile c)).map toConserved)
  else (binaryOp (fun (x : ℝ × ℝ) P => toAngmom P x.1 x.2) X (X.mapO (diskProfile c))).bind evaluate

/-- subprog_binary.cpp:186-194 `create_binary_params`. -/
def RunConfig.elements (c : RunConfig) : Elements := ⟨c.separation, 1, c.massRatio, c.eccentricity⟩

/-- model_two_body.hpp:274-282 `make_full_orbital_elements_with_zeros`. -/
noncomputable def zeroElements : FullElements := ⟨0, 0, 0, 0, 0, 0, ⟨0, 0, 0, 0⟩⟩

/-- subprog_binary.cpp:196-227 `create_solution`.  Both sets of conserved quantities are computed, whichever is used. -/
noncomputable def createSolution (pred : Nat → ℝ → Bool) (fuel : Nat) (c : RunConfig) : Outcome Solution :=
  (createVertices sh pred fuel c).bind fun V =>
  (Tree.mapM (initialBlock true c) V).bind fun u =>
  (createVertices sh pred fuel c).bind fun V =>
  (Tree.mapM (initialBlock false c) V).bind fun q =>
  .ok
    { time := 0
      iteration := 0
      u := if c.conserveLinear then u else emptyTree
      q := if c.conserveLinear then emptyTree else q
      massAccreted := fun _ => 0
      angmomAccreted := fun _ => 0
      torque := fun _ => 0
      work := fun _ => 0
      massEjected := 0
      angmomEjected := 0
      orbitAcc := zeroElements
      orbitGrav := zeroElements
      orbit := { zeroElements with elements := c.elements } }

/-- subprog_binary_solver_data.cpp:29-34, 105: the areas of the cells of a block. -/
noncomputable def blockAreas (B : Arr 2 (ℝ × ℝ)) : Outcome (Arr 2 ℝ) :=
  (difference 0 (B.map Prod.fst)).bind fun dx =>
  (midpoint (1 / 2) 1 dx).bind fun dx =>
  (difference 1 (B.map Prod.snd)).bind fun dy =>
  (midpoint (1 / 2) 0 dy).bind fun dy =>
  (binaryOp (· * ·) dx dy).bind evaluate

open Classical in
/-- subprog_binary_solver_data.cpp:41-55: the smallest difference of the vertices of a block along an axis. -/
noncomputable def blockStep (a : Fin 2) (B : Arr 2 (ℝ × ℝ)) : Outcome ℝ :=
  (difference a (B.map (component a))).bind (minBy (fun x y => decide (x < y)) 0)

open Classical in
/-- subprog_binary_solver_data.cpp:36-39, 57-62: the largest speed in a block. -/
noncomputable def blockSpeed (c : RunConfig) (B : Arr 2 (ℝ × ℝ)) : Outcome ℝ :=
  (blockCenters B).bind fun X =>
  minBy (fun x y => decide (x > y)) 0 ((X.mapO (diskProfile c)).map fun P => Real.sqrt (velocitySquared P))

/-- subprog_binary_solver_data.cpp:64-78, 103: the damping rates of a block. -/
noncomputable def blockBuffer (c : RunConfig) (B : Arr 2 (ℝ × ℝ)) : Outcome (Arr 2 ℝ) :=
  (blockCenters B).bind fun X =>
  evaluate (X.map fun p => c.bufferDampingRate * (1 + Real.tanh (3 * (Real.sqrt (p.1 * p.1 + p.2 * p.2) - c.domainRadius))))

open Classical in
/-- subprog_binary_solver_data.cpp:18-115 `create_solver_data`. -/
noncomputable def createSolverData (pred : Nat → ℝ → Bool) (fuel : Nat) (c : RunConfig) : Outcome SolverData :=
  (createVertices sh pred fuel c).bind fun V =>
  (Tree.mapM (blockStep 0) V).bind fun dx =>
  (Tree.mapM (blockStep 1) V).bind fun dy =>
  (Tree.mapM (blockSpeed c) V).bind fun vmax =>
  (Tree.mapM (blockBuffer c) V).bind fun br =>
  (Tree.mapM (fun B => (blockCenters B).bind evaluate) V).bind fun xc =>
  (Tree.mapM blockAreas V).bind fun dA =>
  (createSolution sh pred fuel c).bind fun s =>
  let h := min dx.min dy.min
  if c.reconstructMethod = "pcm" ∨ c.reconstructMethod = "plm" then
    .ok
      { params :=
          { sinkRate := c.sinkRate
            softening := c.softeningRadius
            gstSuppr := c.sourceTermSoftening * h
            domainRadius := c.domainRadius
            sinkRadius := c.sinkRadius
            densityFloor := c.densityFloor * c.diskMass
            mach := c.machNumber
            alpha := c.alpha
            alphaCutoff := c.alphaCutoffRadius
            nu := c.nu
            plmTheta := c.plmTheta
            axisymmetric := c.axisymmetricCs2 }
        recommendedStep := h / max 1 vmax.max * c.cflNumber
        cfl := c.cflNumber
        beginLive := c.beginLive
        rkOrder := c.rkOrder
        conserveLinear := c.conserveLinear
        fixedDt := c.fixedDt
        noAccretionForce := c.noAccretionForce
        blockSize := c.blockSize
        vertices := V
        centers := xc
        areas := dA
        initialU := s.u
        initialQ := s.q
        bufferRate := br }
  else .throws .invalidArgument

end Verif.Binary
