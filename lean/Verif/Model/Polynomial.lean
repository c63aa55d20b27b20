import Verif.Model.Outcome
import Mathlib.Analysis.SpecialFunctions.Pow.Real
import Mathlib.Analysis.SpecialFunctions.Trigonometric.Inverse

/-!
# Roots of polynomials (`math_polynomial.hpp`)

`double` is `ℝ`, with exact roots and trigonometric functions.  A division by zero, and the square root of a negative
number, are undefined behaviour.
-/

namespace Verif.Polynomial

/-- math_polynomial.hpp:39-43 `cubic_roots_t`. -/
structure CubicRoots where
  x1 : ℝ
  x2 : ℝ
  x3 : ℝ
  numRoots : ℕ

open Classical in
/-- math_polynomial.hpp:84-85, 104: the real cube root by `std::pow`. -/
noncomputable def cubeRoot (s : ℝ) : ℝ := if 0 ≤ s then s ^ (1 / 3 : ℝ) else -(-s) ^ (1 / 3 : ℝ)

open Classical in
/-- math_polynomial.hpp:72-110: the roots of `x^3 + a2 x^2 + a1 x + a0`. -/
noncomputable def monicCubic (a2 a1 a0 : ℝ) : CubicRoots :=
  let q := a1 / 3 - a2 * a2 / 9
  let r := (a1 * a2 - 3 * a0) / 6 - a2 * a2 * a2 / 27
  let delta := q * q * q + r * r
  if delta > 0 then
    let s1 := cubeRoot (r + Real.sqrt delta)
    let s2 := cubeRoot (r - Real.sqrt delta)
    ⟨(s1 + s2) - a2 / 3, -(1 / 2) * (s1 + s2) - a2 / 3, -(1 / 2) * (s1 + s2) - a2 / 3, 1⟩
  else if delta < 0 then
    let theta := Real.arccos (r / Real.sqrt (-q * q * q)) / 3
    let costh := Real.cos theta
    let sinth := Real.sin theta
    let sq := Real.sqrt (-q)
    ⟨2 * sq * costh - a2 / 3, -sq * costh - a2 / 3 - Real.sqrt 3 * sq * sinth,
      -sq * costh - a2 / 3 + Real.sqrt 3 * sq * sinth, 3⟩
  else
    let s := cubeRoot r
    ⟨2 * s - a2 / 3, -s - a2 / 3, -s - a2 / 3, 3⟩

open Classical in
/-- math_polynomial.hpp:70-111 `cubic_roots`. -/
noncomputable def cubicRoots (c3 c2 c1 c0 : ℝ) : Outcome CubicRoots :=
  if c3 = 0 then .ub else .ok (monicCubic (c2 / c3) (c1 / c3) (c0 / c3))

/-- math_polynomial.hpp:45-50 `quartic_roots_t`. -/
structure QuarticRoots where
  x1 : ℝ
  x2 : ℝ
  x3 : ℝ
  x4 : ℝ
  pair1 : Bool
  pair2 : Bool

/-- math_polynomial.hpp:138-139: the root of the resolvent that is used. -/
noncomputable def resolventRoot (c : CubicRoots) : ℝ := if c.numRoots = 1 then c.x1 else max c.x1 c.x3

open Classical in
/-- math_polynomial.hpp:161-188: the pairs of roots, given `R`, `D2` and `E2`. -/
noncomputable def pairs (a3 R D2 E2 : ℝ) : QuarticRoots :=
  let p : ℝ × ℝ × Bool :=
    if D2 ≥ 0 then
      let D := Real.sqrt D2
      (-(1 / 4) * a3 + 1 / 2 * R - 1 / 2 * D, -(1 / 4) * a3 + 1 / 2 * R + 1 / 2 * D, true)
    else (-(1 / 4) * a3 + 1 / 2 * R, -(1 / 4) * a3 + 1 / 2 * R, false)
  let e : ℝ × ℝ × Bool :=
    if E2 ≥ 0 then
      let E := Real.sqrt E2
      (-(1 / 4) * a3 - 1 / 2 * R - 1 / 2 * E, -(1 / 4) * a3 - 1 / 2 * R + 1 / 2 * E, true)
    else (-(1 / 4) * a3 - 1 / 2 * R, -(1 / 4) * a3 + 1 / 2 * R, false)
  ⟨p.1, p.2.1, e.1, e.2.1, p.2.2, e.2.2⟩

open Classical in
/-- math_polynomial.hpp:134-188: the roots of `x^4 + a3 x^3 + a2 x^2 + a1 x + a0`. -/
noncomputable def monicQuartic (a3 a2 a1 a0 : ℝ) : Outcome QuarticRoots :=
  let au2 := -a2
  let au1 := a1 * a3 - 4 * a0
  let au0 := 4 * a0 * a2 - a1 * a1 - a0 * a3 * a3
  let u1 := resolventRoot (monicCubic (au2 / 1) (au1 / 1) (au0 / 1))
  let R2 := 1 / 4 * a3 * a3 + u1 - a2
  let R := if R2 > 0 then Real.sqrt R2 else 0
  if R ≠ 0 then
    let f := 3 / 4 * a3 * a3 - R2 - 2 * a2
    let g := 1 / 4 * (4 * a3 * a2 - 8 * a1 - a3 * a3 * a3) / R
    .ok (pairs a3 R (f + g) (f - g))
  else if u1 * u1 - 4 * a0 < 0 then .ub
  else
    let f := 3 / 4 * a3 * a3 - 2 * a2
    let g := 2 * Real.sqrt (u1 * u1 - 4 * a0)
    .ok (pairs a3 R (f + g) (f - g))

open Classical in
/-- math_polynomial.hpp:128-189 `quartic_roots`. -/
noncomputable def quarticRoots (d4 d3 d2 d1 d0 : ℝ) : Outcome QuarticRoots :=
  if d4 = 0 then .ub else monicQuartic (d3 / d4) (d2 / d4) (d1 / d4) (d0 / d4)

open Classical in
/-- math_polynomial.hpp:206-215 `parabola_vertex`. -/
noncomputable def parabolaVertex (x1 x2 x3 y1 y2 y3 : ℝ) : Outcome (ℝ × ℝ) :=
  let d := (x1 - x2) * (x1 - x3) * (x2 - x3)
  let A := (x3 * (y2 - y1) + x2 * (y1 - y3) + x1 * (y3 - y2)) / d
  let B := (x3 * x3 * (y1 - y2) + x2 * x2 * (y3 - y1) + x1 * x1 * (y2 - y3)) / d
  let C := (x2 * x3 * (x2 - x3) * y1 + x3 * x1 * (x3 - x1) * y2 + x1 * x2 * (x1 - x2) * y3) / d
  if d = 0 ∨ A = 0 then .ub else .ok (-B / (2 * A), C - B * B / (4 * A))

end Verif.Polynomial
