import Mathlib.Data.Real.Basic
import Mathlib.Tactic.FieldSimp
import Mathlib.Tactic.Ring
import Mathlib.Tactic.Linarith

/-!
# The HLLE formula, for one component
-/

namespace Verif.Hlle

/-- The flux from fluxes and densities on both sides and the outer speeds. -/
noncomputable def core (Fl Fr Ul Ur ap am : ℝ) : ℝ := (Fl * ap - Fr * am - (Ul - Ur) * ap * am) / (ap - am)

theorem core_consistent (F U : ℝ) {ap am : ℝ} (h : am < ap) : core F F U U ap am = F := by
  have : ap - am ≠ 0 := by linarith
  unfold core
  field_simp
  ring

theorem core_left (Fl Fr Ul Ur : ℝ) {ap : ℝ} (h : 0 < ap) : core Fl Fr Ul Ur ap 0 = Fl := by
  have : ap ≠ 0 := h.ne'
  unfold core
  field_simp
  ring

theorem core_right (Fl Fr Ul Ur : ℝ) {am : ℝ} (h : am < 0) : core Fl Fr Ul Ur 0 am = Fr := by
  have : am ≠ 0 := h.ne
  unfold core
  field_simp
  ring

theorem core_mirror (Fl Fr Ul Ur ap am : ℝ) :
    core (-Fr) (-Fl) Ur Ul (-am) (-ap) = -core Fl Fr Ul Ur ap am := by
  unfold core
  rw [← neg_div, show -am - -ap = ap - am by ring]
  congr 1
  ring

theorem core_swap (Fl Fr Ul Ur ap am : ℝ) :
    core Fr Fl (-Ur) (-Ul) (-am) (-ap) = core Fl Fr Ul Ur ap am := by
  unfold core
  rw [show -am - -ap = ap - am by ring]
  congr 1
  ring

/-- The state between the outer waves. -/
noncomputable def star (Fl Fr Ul Ur ap am : ℝ) : ℝ := (ap * Ur - Fr + (Fl - am * Ul)) / (ap - am)

theorem core_star_left (Fl Fr Ul Ur : ℝ) {ap am : ℝ} (h : am < ap) :
    core Fl Fr Ul Ur ap am = Fl + am * (star Fl Fr Ul Ur ap am - Ul) := by
  have : ap - am ≠ 0 := by linarith
  unfold core star
  field_simp
  ring

theorem core_star_right (Fl Fr Ul Ur : ℝ) {ap am : ℝ} (h : am < ap) :
    core Fl Fr Ul Ur ap am = Fr + ap * (star Fl Fr Ul Ur ap am - Ur) := by
  have : ap - am ≠ 0 := by linarith
  unfold core star
  field_simp
  ring

end Verif.Hlle
