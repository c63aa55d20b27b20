import Verif.Model.Groups

/-!
# Files that can be, and names of one component
-/

namespace Verif.Groups
open Verif Verif.Text

/-- There is one object at most at each path, and every object is in a group. -/
structure Sound {τ σ ν : Type} (f : File τ σ ν) : Prop where
  once : (f.objects.map (·.1)).Nodup
  inside : ∀ x ∈ f.objects, x.1 ≠ [] ∧ groupAt f x.1.dropLast = true

/-- A name without slashes and null characters. -/
def Plain (n : Str) : Prop := n ≠ [] ∧ n ≠ ['.'] ∧ '/' ∉ n ∧ Char.ofNat 0 ∉ n

end Verif.Groups
