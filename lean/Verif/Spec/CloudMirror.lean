import Verif.Model.Cloud
import Verif.Spec.Lines

/-!
# Mirror images on the spherical grid of the cloud program
-/

namespace Verif.Cloud

/-- Density, three components of velocity, pressure; or mass, momentum, energy. Seen from the other side of the equator, the velocity along the meridian is the
opposite. -/
def mirror (P : Fin 5 → ℝ) : Fin 5 → ℝ := ![P 0, P 1, -P 2, P 3, P 4]

/-- With the sense of rotation about the axis reversed. -/
def counter (P : Fin 5 → ℝ) : Fin 5 → ℝ := ![P 0, P 1, P 2, -P 3, P 4]

/-- The two hemispheres are mirror images. -/
def Symmetric (m n : Nat) (s : Solution) : Prop := ∃ (r q : Nat → ℝ) (u : Nat → Nat → Fin 5 → ℝ), Nd.Line s.radial (m + 1) r ∧ Nd.Line s.polar (n + 1) q
  ∧ Nd.Grid s.conserved m n u ∧ (∀ j, j ≤ n → q (n - j) = Real.pi - q j) ∧ ∀ i, i < m → ∀ j, j < n → u i (n - 1 - j) = mirror (u i j)

/-- There is no momentum around the axis. -/
def Unturned (m n : Nat) (s : Solution) : Prop := ∃ (r q : Nat → ℝ) (u : Nat → Nat → Fin 5 → ℝ), Nd.Line s.radial (m + 1) r ∧ Nd.Line s.polar (n + 1) q
  ∧ Nd.Grid s.conserved m n u ∧ ∀ i, i < m → ∀ j, j < n → u i j 3 = 0

end Verif.Cloud
