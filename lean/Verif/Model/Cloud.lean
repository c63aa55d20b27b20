import Verif.Model.Sedov
import Verif.Model.Plm
import Mathlib.Analysis.SpecialFunctions.Trigonometric.Basic

/-!
# Grid and update of the cloud program (`subprog_cloud.cpp`)

Over `ℝ`.  The gas is a parameter, and so are the states behind the inner boundary.  `mara::evaluate_on` is modelled as `to_shared`;
that threads do not matter is the subject of C27.
-/

namespace Verif.Nd

variable {α β : Type}

/-- core_ndarray.hpp:1676-1686 `cartesian_product` of two arrays. -/
def cartesianProduct (a : Arr 1 α) (b : Arr 1 β) : Arr 2 (α × β) :=
  ⟨![volume a.shape, volume b.shape], fun i => (a.get fun _ => i 0).bind fun x => (b.get fun _ => i 1).map fun y => (x, y)⟩

/-- core_ndarray.hpp:1700-1704 `meshgrid` of two arrays. -/
def meshgrid (a : Arr 1 α) (b : Arr 1 β) : Arr 2 α × Arr 2 β :=
  ((cartesianProduct a b).map Prod.fst, (cartesianProduct a b).map Prod.snd)

end Verif.Nd

namespace Verif.Cloud

open Verif.Nd Verif.Sedov

/-- subprog_cloud.cpp:260-266 `radial_face_areas`. -/
noncomputable def radialFaceAreas (rv qv : Arr 1 ℝ) : Outcome (Arr 2 ℝ) :=
  let r := (meshgrid rv qv).1
  let q := (meshgrid rv qv).2
  (midpoint (1 / 2) 1 r).bind fun rc =>
  (difference 1 (q.map fun x => -Real.cos x)).bind fun dm =>
  (binaryOp (· * ·) rc rc).bind fun rr =>
  (binaryOp (· * ·) rr dm).map fun A => A.map fun x => x * 2 * Real.pi

/-- subprog_cloud.cpp:268-275 `polar_face_areas`. -/
noncomputable def polarFaceAreas (rv qv : Arr 1 ℝ) : Outcome (Arr 2 ℝ) :=
  let r := (meshgrid rv qv).1
  let q := (meshgrid rv qv).2
  (difference 0 r).bind fun dr =>
  (midpoint (1 / 2) 0 r).bind fun rc =>
  (midpoint (1 / 2) 0 q).bind fun qc =>
  (binaryOp (· * ·) rc dr).bind fun rr =>
  (binaryOp (· * ·) rr (qc.map Real.sin)).map fun A => A.map fun x => x * 2 * Real.pi

/-- subprog_cloud.cpp:277-283 `cell_volumes`. -/
noncomputable def cellVolumes (rv qv : Arr 1 ℝ) : Outcome (Arr 2 ℝ) :=
  let r := (meshgrid rv qv).1
  let q := (meshgrid rv qv).2
  (difference 0 (r.map fun x => x * x * x)).bind fun dr =>
  (midpoint (1 / 2) 1 dr).bind fun dv =>
  (difference 1 (q.map fun x => -Real.cos x)).bind fun dq =>
  (midpoint (1 / 2) 0 dq).bind fun dm =>
  (binaryOp (· * ·) dv dm).map fun A => A.map fun x => x * 2 * Real.pi / 3

/-- subprog_cloud.cpp:285-290 `cell_centroids`. -/
noncomputable def cellCentroids (rv qv : Arr 1 ℝ) : Outcome (Arr 2 (ℝ × ℝ)) :=
  (midpoint (1 / 2) 0 rv).bind fun rc => (midpoint (1 / 2) 0 qv).map fun qc => cartesianProduct rc qc

/-- What the update uses of the gas, with adiabatic index and temperature floor bound (subprog_cloud.cpp:439-448, 515-523).
`riemann a` has the unit vector along axis `a`. -/
structure Gas where
  recover : Vec 5 ℝ → Outcome (Vec 5 ℝ)
  riemann : Fin 2 → Vec 5 ℝ → Vec 5 ℝ → Outcome (Vec 5 ℝ)
  source : Vec 5 ℝ → ℝ → ℝ → Outcome (Vec 5 ℝ)

/-- subprog_cloud.cpp:485-492: `inflow` is the state behind the inner boundary at a polar angle (466-483, `inflow_function`).
`reshape` keeps the buffer of the array, its elements in order. -/
noncomputable def extendInflow (inflow : ℝ → Vec 5 ℝ) (qv : Arr 1 ℝ) (A : Arr 2 (Vec 5 ℝ)) : Outcome (Arr 2 (Vec 5 ℝ)) :=
  (midpoint (1 / 2) 0 qv).bind fun qc =>
  (elements (qc.map inflow)).bind fun buf =>
  (reshape ![1, volume qc.shape] qc.shape buf).bind fun row =>
  concat 0 A row

/-- subprog_cloud.cpp:503-509 `extend_zero_gradient_outer`. -/
def extendOuter (A : Arr 2 (Vec 5 ℝ)) : Outcome (Arr 2 (Vec 5 ℝ)) := (selectFinal 1 0 A).bind fun xr => concat 0 xr A

/-- subprog_cloud.cpp:538, 554-570 `extrapolate`: the states on the two sides of each face. The signs `z` are those of differences
that are zero. -/
noncomputable def extrapolate (method : Int) (z : Fin 5 → Bool) (theta : ℝ) (a : Nat) (A : Arr 2 (Vec 5 ℝ)) :
    Outcome (Arr 2 (Vec 5 ℝ × Vec 5 ℝ)) :=
  if method = 1 then zipAdjacent2 a A
  else
    (zipAdjacent3 a A).bind fun T =>
    (extendZeros a (T.map fun x => Plm.plmGradientSeq z z z theta x.1 x.2.1 x.2.2)).bind fun E =>
    (evaluate E).bind fun G =>
    (selectAxis a 0 1 1 true A).bind fun PL =>
    (selectAxis a 0 1 1 true G).bind fun GL =>
    (selectAxis a 1 0 1 true A).bind fun PR =>
    (selectAxis a 1 0 1 true G).bind fun GR =>
    (binaryOp (· + ·) PL (GL.map fun x => scale x (1 / 2))).bind fun L =>
    (binaryOp (· - ·) PR (GR.map fun x => scale x (1 / 2))).bind fun R =>
    binaryOp Prod.mk L R

/-- subprog_cloud.cpp:439-448 `intercell_flux`. -/
def intercellFlux (g : Gas) (a : Fin 2) (A : Arr 2 (Vec 5 ℝ × Vec 5 ℝ)) : Arr 2 (Vec 5 ℝ) :=
  A.mapO fun x => g.riemann a x.1 x.2

/-- subprog_cloud.cpp:105-112 `solution_t`, without the count of iterations. -/
structure Solution where
  time : ℝ
  radial : Arr 1 ℝ
  polar : Arr 1 ℝ
  conserved : Arr 2 (Vec 5 ℝ)

/-- subprog_cloud.cpp:511-584 `advance`. -/
noncomputable def advance (g : Gas) (inflow : ℝ → Vec 5 ℝ) (method : Int) (z : Fin 5 → Bool) (theta : ℝ) (s : Solution) (dt : ℝ) : Outcome Solution :=
  (cellCentroids s.radial s.polar).bind fun c =>
  (evaluate c).bind fun rc =>
  (cellVolumes s.radial s.polar).bind fun v =>
  (evaluate v).bind fun dv =>
  (radialFaceAreas s.radial s.polar).bind fun ar =>
  (evaluate ar).bind fun dAr =>
  (polarFaceAreas s.radial s.polar).bind fun aq =>
  (evaluate aq).bind fun dAq =>
  (binaryOpO divideVec s.conserved dv).bind fun d =>
  (evaluate (d.mapO g.recover)).bind fun p0 =>
  (binaryOpO (fun p x => g.source p x.1 x.2) p0 rc).bind fun src =>
  (binaryOp scale src dv).bind fun s0 =>
  if method = 1 ∨ method = 2 then
    (extendOuter p0).bind fun p1 =>
    (extendInflow inflow s.polar p1).bind fun p2 =>
    (extrapolate method z theta 0 p2).bind fun er =>
    (binaryOp scale (intercellFlux g 0 er) (dAr.map fun x => -x)).bind fun fr =>
    (difference 0 fr).bind fun lr =>
    (extrapolate method z theta 1 p0).bind fun eq =>
    (extendZeros 1 (intercellFlux g 1 eq)).bind fun fz =>
    (binaryOp scale fz (dAq.map fun x => -x)).bind fun fq =>
    (difference 1 fq).bind fun lq =>
    (binaryOp (· + ·) lr lq).bind fun l =>
    (binaryOp (· + ·) l s0).bind fun ls =>
    (binaryOp (· + ·) s.conserved (ls.map fun x => scale x dt)).bind fun u1 =>
    (evaluate u1).bind fun u =>
    .ok ⟨s.time + dt, s.radial, s.polar, u⟩
  else .throws .invalidArgument

/-- subprog_cloud.cpp:676-697 `next_solution`, with the operators of `solution_t` (115-134). The inflow is taken at the time of the
solution in both stages. -/
noncomputable def nextSolution (g : Gas) (inflow : ℝ → ℝ → Vec 5 ℝ) (method : Int) (z : Fin 5 → Bool) (theta cfl : ℝ) (rk : Int) (s0 : Solution) :
    Outcome Solution :=
  (difference 0 s0.radial).bind fun dr =>
  (dr.get fun _ => 0).bind fun drMin =>
  let dt := drMin * cfl
  if rk = 1 then advance g (inflow s0.time) method z theta s0 dt
  else if rk = 2 then
    (advance g (inflow s0.time) method z theta s0 dt).bind fun s1 =>
    (advance g (inflow s0.time) method z theta s1 dt).bind fun s2 =>
    (evaluate (s0.conserved.map fun x => scale x (1 / 2))).bind fun a =>
    (evaluate (s2.conserved.map fun x => scale x (1 / 2))).bind fun b =>
    (binaryOp (· + ·) a b).bind fun c =>
    (evaluate c).bind fun u =>
    .ok ⟨s0.time * (1 / 2) + s2.time * (1 / 2), s0.radial, s0.polar, u⟩
  else .throws .invalidArgument

end Verif.Cloud
