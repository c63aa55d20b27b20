import Verif.Model.Handles

/-!
# Careful use of handles
-/

namespace Verif.Handles

/-- Uses of handles that cause no trouble: files, groups and datasets are assigned to only when they are
closed; other handles are never closed by hand, nor assigned to themselves or from a handle that has been
moved from. -/
def Polite (k : Kind) (s : St) : Op → Prop
  | .moveAssign v _ => s.vars v = some none
  | .close _ => k = .link
  | .assign v w => v ≠ w ∧ s.vars w ≠ some none
  | _ => True

/-- A history of such uses. -/
def PoliteRun (k : Kind) (s : St) : List Op → Prop
  | [] => True
  | op :: ops => Polite k s op ∧ ∀ s', step k s op = some s' → PoliteRun k s' ops

/-- No handle object exists. -/
def St.noVars (s : St) : Prop := ∀ v, s.vars v = none

end Verif.Handles
