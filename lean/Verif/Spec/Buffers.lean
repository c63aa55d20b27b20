import Verif.Model.Buffers
import Mathlib.Data.Set.Insert

/-!
# What arrays contain, without memory

An array is a list of values with a number of elements; nothing is shared and nothing has an address.
-/

namespace Verif.Buffers

variable {α : Type}

/-- Of each array its size and its values. -/
structure Values (α : Type) where
  unique : Nat → Option (Nat × List α)
  shared : Nat → Option (Nat × List α)

def Values.empty : Values α := ⟨fun _ => none, fun _ => none⟩

/-- An operation that a program can do: it makes new arrays, uses arrays that exist, and writes elements that exist. -/
def Allowed (V : Values α) : Op α → Prop
  | .make x _ _ => V.unique x = none
  | .move x y => V.unique x = none ∧ V.unique y ≠ none
  | .assign x y => V.unique x ≠ none ∧ V.unique y ≠ none
  | .write x i _ => ∃ n l, V.unique x = some (n, l) ∧ i < l.length
  | .destroy x => V.unique x ≠ none
  | .reshapeCopy y x _ => V.unique y = none ∧ V.unique x ≠ none
  | .reshapeMove y x _ => V.unique y = none ∧ V.unique x ≠ none
  | .shareCopy s x => V.shared s = none ∧ V.unique x ≠ none
  | .shareMove s x => V.shared s = none ∧ V.unique x ≠ none
  | .copy s t => V.shared s = none ∧ V.shared t ≠ none
  | .reshape s t _ => V.shared s = none ∧ V.shared t ≠ none
  | .drop s => V.shared s ≠ none

/-- The array `x`, with no values and size zero if there is none. -/
def Values.get (V : Values α) (x : Nat) : Nat × List α := (V.unique x).getD (0, [])

/-- Likewise. -/
def Values.getShared (V : Values α) (s : Nat) : Nat × List α := (V.shared s).getD (0, [])

def Values.put (V : Values α) (x : Nat) (a : Option (Nat × List α)) : Values α := { V with unique := Function.update V.unique x a }

def Values.putShared (V : Values α) (s : Nat) (a : Option (Nat × List α)) : Values α := { V with shared := Function.update V.shared s a }

/-- What the operation does: whether it throws, and the values after it.  Moving leaves no values behind; the size stays. -/
def effect (V : Values α) : Op α → Bool × Values α
  | .make x n v => (false, V.put x (some (n, List.replicate n v)))
  | .move x y => (false, (V.put x (some (V.get y))).put y (some ((V.get y).1, [])))
  | .assign x y => (false, (V.put x (some (V.get y))).put y (some ((V.get y).1, [])))
  | .write x i v => (false, V.put x (some ((V.get x).1, (V.get x).2.set i v)))
  | .destroy x => (false, V.put x none)
  | .reshapeCopy y x n => if n = (V.get x).2.length then (false, V.put y (some (n, (V.get x).2))) else (true, V)
  | .reshapeMove y x n =>
    let W := V.put x (some ((V.get x).1, []))
    if n = (V.get x).2.length then (false, W.put y (some (n, (V.get x).2))) else (true, W)
  | .shareCopy s x => if (V.get x).1 = (V.get x).2.length then (false, V.putShared s (some (V.get x))) else (true, V)
  | .shareMove s x =>
    let W := V.put x (some ((V.get x).1, []))
    if (V.get x).1 = (V.get x).2.length then (false, W.putShared s (some (V.get x))) else (true, W)
  | .copy s t => (false, V.putShared s (some (V.getShared t)))
  | .reshape s t n => if n = (V.getShared t).2.length then (false, V.putShared s (some (n, (V.getShared t).2))) else (true, V)
  | .drop s => (false, V.putShared s none)

/-- A program whose operations are allowed when they are reached. -/
def AllowedAll (V : Values α) : List (Op α) → Prop
  | [] => True
  | op :: ops => Allowed V op ∧ AllowedAll (effect V op).2 ops

/-- The values after a program. -/
def effects (V : Values α) : List (Op α) → Values α
  | [] => V
  | op :: ops => effects (effect V op).2 ops

/-- The arrays that were moved from, of which `M` were before the operation. -/
def movedFrom (M : Set Nat) : Op α → Set Nat
  | .make x _ _ | .destroy x | .reshapeCopy x _ _ => M \ {x}
  | .move x y | .assign x y | .reshapeMove x y _ => insert y (M \ {x})
  | .shareMove _ x => insert x M
  | _ => M

/-- No array that was moved from is moved again. -/
def Careful (M : Set Nat) : Op α → Prop
  | .move _ y | .assign _ y => y ∉ M
  | _ => True

def CarefulAll (M : Set Nat) : List (Op α) → Prop
  | [] => True
  | op :: ops => Careful M op ∧ CarefulAll (movedFrom M op) ops

def movedFromAll (M : Set Nat) : List (Op α) → Set Nat
  | [] => M
  | op :: ops => movedFromAll (movedFrom M op) ops

end Verif.Buffers
