import Verif.Model.Schedule

/-! Vocabulary for the properties of schedules. -/

namespace Verif.Sched
open Verif Verif.Text

variable {τ S : Type}

/-- Calling functions one after the other, on what the previous one returned. -/
def runAll : List (S → Outcome S) → S → Outcome S
  | [], s => .ok s
  | f :: fs, s => (f s).bind (runAll fs)

/-- The task is known and is due. -/
def DueIn (s : Schedule τ) (name : Str) : Prop := ∃ t, s.get? name = some t ∧ t.due = true

instance (s : Schedule τ) (name : Str) : Decidable (DueIn s name) :=
  match h : s.get? name with
  | none => isFalse (by rintro ⟨t, ht, _⟩; rw [h] at ht; cases ht)
  | some t => if hd : t.due = true then isTrue ⟨t, h, hd⟩
    else isFalse (by rintro ⟨t', ht, hd'⟩; rw [h] at ht; cases ht; exact hd hd')

/-- A task after it has been performed and marked as completed. -/
def TaskRec.done (t : TaskRec τ) : TaskRec τ := { t with due := false, num := t.num + 1 }

end Verif.Sched
