import Verif.Model.Runs
import Verif.Model.BinaryStep

/-!
# The time series of the binary program
-/

namespace Verif.Binary

open Verif Iso2d TwoBody

variable {D : Type}

/-- subprog_binary.hpp:144-161 `time_series_sample_t`. -/
structure Row where
  time : ℝ
  diskMass : ℝ
  diskAngmom : ℝ
  massEjected : ℝ
  angmomEjected : ℝ
  massAccreted : Fin 2 → ℝ
  angmomAccreted : Fin 2 → ℝ
  torque : Fin 2 → ℝ
  work : Fin 2 → ℝ
  orbitAcc : FullElements
  orbitGrav : FullElements
  orbit : FullElements
  position1 : ℝ × ℝ
  position2 : ℝ × ℝ

/-- subprog_binary.cpp:360-375: the sample taken by `record_time_series`. -/
noncomputable def sample (m : SolverData) (s : Solution) : Outcome Row :=
  (fullTwoBodyState s.orbit s.time).bind fun b =>
  (diskMass m s).bind fun M =>
  (diskAngmom m s).bind fun L =>
  .ok
    { time := s.time
      massAccreted := s.massAccreted
      angmomAccreted := s.angmomAccreted
      torque := s.torque
      work := s.work
      massEjected := s.massEjected
      angmomEjected := s.angmomEjected
      diskMass := M
      diskAngmom := L
      orbitAcc := s.orbitAcc
      orbitGrav := s.orbitGrav
      orbit := s.orbit
      position1 := (b.body1.x, b.body1.y)
      position2 := (b.body2.x, b.body2.y) }

/-- subprog_binary.cpp:416-421: the run of the program with the solver data `m`, made once before it (417); `diag` are the diagnostic fields. -/
noncomputable def env (sh : Nat → Outcome Nat) (fuel : Nat) (z : Fin 9 → Bool) (m : SolverData) (diag : Config.Config ℝ → Solution → Outcome D) :
    Runs.Binary.Env Solution ℝ Row D where
  advance := fun _ s => nextSolution sh fuel z m s
  time := Solution.time
  sample := fun _ s => sample m s
  diag := diag
  twoPi := 2 * Real.pi

end Verif.Binary
