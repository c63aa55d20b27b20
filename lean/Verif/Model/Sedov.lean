import Verif.Model.NdOps

/-!
# Grids and updates in one dimension (`subprog_sedov.cpp`, `subprog_boilerplate.cpp`)

`double` is a field `K`; a division by zero, which gives infinities or NaN, is undefined behaviour.
-/

namespace Verif.Nd

variable {R : Nat} {α β γ : Type}

/-- core_ndarray.hpp:2291-2298 `map`, for a function that may fail. -/
def Arr.mapO (f : α → Outcome β) (A : Arr R α) : Arr R β := ⟨A.shape, fun i => (A.get i).bind f⟩

/-- core_ndarray.hpp:2337-2351 `binary_op`, and `zip(..) | apply(f)`, for a function that may fail. -/
def binaryOpO (f : α → β → Outcome γ) (A : Arr R α) (B : Arr R β) : Outcome (Arr R γ) :=
  (binaryOp Prod.mk A B).map fun C => C.mapO fun x => f x.1 x.2

end Verif.Nd

namespace Verif.Sedov

open Verif.Nd

variable {K : Type} [Field K] [DecidableEq K] [Inhabited K]

/-- Division. -/
def divide (x y : K) : Outcome K := if y = 0 then .ub else .ok (x / y)

/-- Sequences of conserved quantities, fluxes and source terms. -/
abbrev Vec (m : Nat) (K : Type) := Fin m → K

/-- Division of a sequence by a number. -/
def divideVec {m : Nat} (x : Vec m K) (y : K) : Outcome (Vec m K) := if y = 0 then .ub else .ok fun a => x a / y

/-- The parts of a `HydroSystem` that the Sedov program uses, with adiabatic index and unit vector bound (subprog_sedov.cpp:226,
238, 400-401). The primitive quantities are a type `P`. -/
structure Hydro (m : Nat) (K P : Type) where
  recover : Vec m K → Outcome P
  riemann : P → P → Outcome (Vec m K)
  source : P → K → Outcome (Vec m K)
  mirror : P → P

variable {m : Nat} {P : Type}

/-- subprog_sedov.cpp:167-171 `face_areas`. -/
def faceAreas {K : Type} [Mul K] (vertices : Arr 1 K) : Arr 1 K := vertices.map fun r => r * r

/-- subprog_sedov.cpp:173-181 `cell_volumes`. -/
def cellVolumes (vertices : Arr 1 K) : Outcome (Arr 1 K) :=
  (zipAdjacent2 0 vertices).map fun Z => Z.map fun x => (x.2 ^ 3 - x.1 ^ 3) / 3

/-- subprog_sedov.cpp:217-229 `intercell_flux(0)`. -/
def intercellFlux {K : Type} (H : Hydro m K P) (A : Arr 1 P) : Outcome (Arr 1 (Vec m K)) :=
  (selectAxis 0 0 1 1 true A).bind fun L =>
  (selectAxis 0 1 0 1 true A).bind fun U =>
  binaryOpO H.riemann L U

/-- subprog_sedov.cpp:231-241 `extend_reflecting_inner`. -/
def extendReflectingInner {K : Type} (H : Hydro m K P) (A : Arr 1 P) : Outcome (Arr 1 P) :=
  (selectFirst 1 0 A).bind fun xl => concat 0 A (xl.map H.mirror)

/-- subprog_sedov.cpp:243-250 `extend_zero_gradient_outer`. -/
def extendZeroGradientOuter (A : Arr 1 P) : Outcome (Arr 1 P) :=
  (selectFinal 1 0 A).bind fun xr => concat 0 xr A

/-- subprog_sedov.cpp:128-134 `solution_state_t`, without the count of iterations. -/
structure State (m : Nat) (K : Type) where
  time : K
  vertices : Arr 1 K
  conserved : Arr 1 (Vec m K)

/-- A sequence times a number. -/
def scale {K : Type} [Mul K] (x : Vec m K) (y : K) : Vec m K := fun a => x a * y

/-- subprog_sedov.cpp:394-421 `next_solution` in any arithmetic; `cfl` is 0.4 (subprog_sedov.cpp:49), `half` the factor `0.5` of
`midpoint_on_axis`, `volumes` is `cell_volumes` and `over` the division of contents by a volume; `compose` applies its second argument
first (app_performance.hpp:46-53). -/
def nextSolutionBy {K : Type} [Add K] [Sub K] [Mul K] [Neg K] [Inhabited K] [Inhabited P] (volumes : Arr 1 K → Outcome (Arr 1 K)) (half : K)
    (over : Vec m K → K → Outcome (Vec m K)) (H : Hydro m K P) (cfl : K) (st : State m K) : Outcome (State m K) :=
  (difference 0 st.vertices).bind fun dr =>
  (dr.get fun _ => 0).bind fun drMin =>
  let dt := cfl * drMin
  (volumes st.vertices).bind fun dv' =>
  (evaluate dv').bind fun dv =>
  let da := faceAreas st.vertices
  (midpoint half 0 st.vertices).bind fun rc =>
  (binaryOpO over st.conserved dv).bind fun d =>
  (evaluate (d.mapO H.recover)).bind fun p0 =>
  (binaryOpO H.source p0 rc).bind fun s =>
  (binaryOp scale s dv).bind fun s0 =>
  (extendZeroGradientOuter p0).bind fun p1 =>
  (extendReflectingInner H p1).bind fun p2 =>
  (intercellFlux H p2).bind fun f =>
  (binaryOp scale f (da.map fun x => -x)).bind fun fa =>
  (difference 0 fa).bind fun l0 =>
  (binaryOp (· + ·) l0 s0).bind fun ls =>
  (binaryOp (· + ·) st.conserved (ls.map fun x => scale x dt)).bind fun u =>
  (evaluate u).bind fun u1 =>
  .ok ⟨st.time + dt, st.vertices, u1⟩

/-- The same in a field. -/
def nextSolution [Inhabited P] (H : Hydro m K P) (cfl : K) (st : State m K) : Outcome (State m K) :=
  nextSolutionBy cellVolumes (1 / 2) divideVec H cfl st

/-- subprog_boilerplate.cpp:66-72 `intercell_flux_on_axis(0)`. -/
def upwindFlux (A : Arr 1 K) : Outcome (Arr 1 K) := selectAxis 0 0 1 1 true A

/-- subprog_boilerplate.cpp:58-64 `solution_state_t`, without the count of iterations. -/
structure Advection (K : Type) where
  time : K
  vertices : Arr 1 K
  solution : Arr 1 K

/-- subprog_boilerplate.cpp:121-136 `next_solution`. The midpoints at 127 are not used; taking them cannot fail if taking the
differences does not. -/
def nextAdvection (st : Advection K) : Outcome (Advection K) :=
  (divide (1 / 4) (st.vertices.shape 0 : K)).bind fun dt =>
  (difference 0 st.vertices).bind fun dx =>
  (extendPeriodic 0 1 st.solution).bind fun ue =>
  (upwindFlux ue).bind fun fc =>
  (difference 0 fc).bind fun df =>
  (binaryOpO divide df dx).bind fun lc =>
  (binaryOp (· - ·) st.solution (lc.map fun x => x * dt)).bind fun u =>
  (evaluate u).bind fun u1 =>
  .ok ⟨st.time + dt, st.vertices, u1⟩

/-- subprog_boilerplate.cpp:99-111 `new_solution`, with `2 pi` bound to the initial condition. -/
def newAdvection (initial : K → K) (n : Nat) : Outcome (Advection K) :=
  let xv := linspace (0 : K) 1 (w (n + 1))
  (midpoint (1 / 2) 0 xv).bind fun xc =>
  (evaluate xv).bind fun v =>
  (evaluate (xc.map initial)).bind fun u =>
  .ok ⟨0, v, u⟩

end Verif.Sedov
