import Verif.Spec.SedovPositive

/-!
# What a step of the Sedov program computes on the way, runs, and how far apart zones are
-/

namespace Verif.Sedov

open Verif.Nd

/-- The gas `p` in the zones that have the contents `u`, the fluxes `F` through the faces (the reflecting inner end, those between zones, and
the open outer end) and the source terms `S`: everything that a step computes and that can fail. -/
structure Computes {P : Type} (H : Hydro 5 ℝ P) (n : Nat) (r : Nat → ℝ) (u : Nat → Vec 5 ℝ) (p : Nat → P) (F S : Nat → Vec 5 ℝ) : Prop where
  gas : ∀ k, k < n → H.recover (fun a => u k a / shell r k) = .ok (p k)
  inner : H.riemann (H.mirror (p 0)) (p 0) = .ok (F 0)
  faces : ∀ k, 0 < k → k < n → H.riemann (p (k - 1)) (p k) = .ok (F k)
  outer : H.riemann (p (n - 1)) (p (n - 1)) = .ok (F n)
  sources : ∀ k, k < n → H.source (p k) ((r k + r (k + 1)) / 2) = .ok (S k)

/-- The zones of `u` and `u'` that are at most `d` zones away from the zone `i` have the same contents. -/
def AgreeNear (n d i : Nat) (u u' : Nat → Vec 5 ℝ) : Prop := ∀ k, k < n → k ≤ i + d → i ≤ k + d → u k = u' k

/-- The state `st'` is the state `st` in a unit of length and of time that is `1 / c` as long: `n` zones with the radii `r` and contents `u`, the latter
being integrals over volume. -/
def Stretched (c : ℝ) (n : Nat) (st st' : State 5 ℝ) : Prop :=
  st'.time = c * st.time ∧ ∃ r u, Line st.vertices (n + 1) r ∧ Line st.conserved n u ∧ Line st'.vertices (n + 1) (fun k => c * r k) ∧
    Line st'.conserved n (fun k a => c ^ 3 * u k a)

end Verif.Sedov
