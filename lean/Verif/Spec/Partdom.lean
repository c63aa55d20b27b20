import Verif.Model.Partdom
import Verif.Spec.NdArray

/-!
# Vocabulary for the program that decomposes a domain
-/

namespace Verif.Partdom
open Verif Verif.Nd

/-- The centre of a cell of the domain: the cells have unit size. -/
def center {K : Type} [Field K] (c : Ix 3) : Fin 3 → K := fun a => (c a : K) + 1 / 2

/-- The corners of a cell. -/
def IsCorner {K : Type} [Field K] (c : Ix 3) (v : Fin 3 → K) : Prop := ∀ a, v a = (c a : K) ∨ v a = (c a : K) + 1

end Verif.Partdom
