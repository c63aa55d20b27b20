import Verif.Model.BinarySetup
import Verif.Spec.BinaryMesh

/-!
# Specification vocabulary for the start of the binary program
-/

namespace Verif.Binary

open Verif Verif.Nd Verif.Tree Iso2d

/-- A configuration the binary program can start from. -/
structure Sensible (c : RunConfig) : Prop where
  radius : 0 < c.domainRadius
  block : 1 ≤ c.blockSize
  bound : (c.blockSize + 2) * (c.blockSize + 2) < 2 ^ 31
  depth : c.depth ≤ 30
  softening : 0 < c.softeningRadius
  disk : 0 < c.diskRadius
  mass : 0 < c.diskMass
  ambient : 0 ≤ c.ambientDensity
  /-- the gas is so cold that it is held by gravity at the corners of the domain -/
  cold : 2 * (c.domainRadius / c.diskRadius) ^ 2 ≤ c.machNumber ^ 2 - 1
  separation : 0 < c.separation
  massRatio : 0 < c.massRatio
  eccentricity : 0 ≤ c.eccentricity ∧ c.eccentricity ≤ 9 / 10
  sink : c.sinkRadius ≠ 0
  sinkRate : 0 ≤ c.sinkRate
  sourceTerm : c.sourceTermSoftening ≠ 0
  method : c.reconstructMethod = "pcm" ∨ c.reconstructMethod = "plm"

/-- The primitive variables of the disk at a point. -/
noncomputable def disk (c : RunConfig) (p : ℝ × ℝ) : Tri :=
  let r := Real.sqrt (p.1 ^ 2 + p.2 ^ 2)
  let vp := Real.sqrt (1 / (r + c.softeningRadius) + c.dpdr r) * (if c.counterRotate then -1 else 1)
  let vr := open Classical in if r > 2 then -c.mdot / (c.sigma r * 2 * Real.pi * r) else 0
  ⟨c.sigma r, vr * (p.1 / r) - vp * (p.2 / r), vr * (p.2 / r) + vp * (p.1 / r)⟩

/-- The conserved quantities of the disk at a point. -/
noncomputable def startOf (lin : Bool) (c : RunConfig) (p : ℝ × ℝ) : Tri :=
  let P := disk c p
  if lin then ⟨P.a, P.a * P.b, P.a * P.c⟩ else ⟨P.a, P.a * (p.1 * P.b + p.2 * P.c), P.a * (p.1 * P.c - p.2 * P.b)⟩

/-- The damping rate of the buffer at a point. -/
noncomputable def bufferRate (c : RunConfig) (p : ℝ × ℝ) : ℝ :=
  c.bufferDampingRate * (1 + Real.tanh (3 * (Real.sqrt (p.1 ^ 2 + p.2 ^ 2) - c.domainRadius)))

end Verif.Binary
