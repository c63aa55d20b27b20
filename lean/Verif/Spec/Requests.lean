import Verif.Model.Requests

/-!
# What the life of a request looks like
-/

namespace Verif.Requests

/-- The calls of the library for the request `i`, in order. -/
def St.calls (s : St) (i : Nat) : List Call := (s.log.filter (fun p => p.1 == i)).map Prod.snd

/-- The object `v` has the request `i`. -/
def St.has (s : St) (v i : Nat) : Prop := s.vars v = some (some i)

/-- Started, and perhaps looked at. -/
def Pending (l : List Call) : Prop := ∃ n, l = .start :: List.replicate n .status

/-- Started, perhaps looked at, and then either waited for, or cancelled and freed; nothing after that. -/
def Finished (l : List Call) : Prop :=
  ∃ n, l = .start :: List.replicate n .status ++ [.wait] ∨
    l = .start :: List.replicate n .status ++ [.cancel, .free]

end Verif.Requests
