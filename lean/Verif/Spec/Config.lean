import Verif.Model.Config

/-! Vocabulary for the properties of configurations. -/

namespace Verif.Config
open Verif Verif.Text

variable {τ : Type}

/-- The parameter is declared in the template, with the type of `v`. -/
def Declared (t : Template τ) (k : Str) (v : Param τ) : Prop :=
  ∃ d, t.get? k = some d ∧ v.index = d.index

/-- The configurations a program can get from a template with the interface of `config_t`. -/
inductive Reachable (stod : Str → Outcome τ) (t : Template τ) : Config τ → Prop
  | create : Reachable stod t (Template.create t)
  | set {c c' k v} : Reachable stod t c → c.set k v = .ok c' → Reachable stod t c'
  | setText {c c' k s} : Reachable stod t c → c.setText stod k s = .ok c' → Reachable stod t c'
  | update {c c' m} : Reachable stod t c → c.update m = .ok c' → Reachable stod t c'
  | updateText {c c' m} : Reachable stod t c → c.updateText stod m = .ok c' → Reachable stod t c'

/-- A history of calls of `set`, of which some may throw; the caller then keeps the configuration they
had. -/
def history (c : Config τ) : List (Str × Param τ) → Config τ
  | [] => c
  | (k, v) :: h => match c.set k v with
    | .ok c' => history c' h
    | _ => history c h

/-- The last value in a history for a key that has the type of `d`, or `d` if there is none. -/
def lastValue (k : Str) (d : Param τ) : List (Str × Param τ) → Param τ
  | [] => d
  | (j, v) :: h => lastValue k (if j = k ∧ v.index = d.index then v else d) h

end Verif.Config
