import Verif.Model.Loop
import Verif.Model.Double

/-!
# Bringing a number into an interval (`model_two_body.hpp`)

For numbers of any kind: exact ones, or doubles.  The recursion is a tail call; the stack is taken to be large enough.
-/

namespace Verif.Wrap

variable {α : Type} [Add α] [Sub α] [LT α] [DecidableLT α]

/-- model_two_body.hpp:152-156: one call. -/
def step (x0 x1 x : α) : Outcome (α ⊕ α) :=
  if x < x0 then .ok (.inl (x + (x1 - x0)))
  else if x1 < x then .ok (.inl (x - (x1 - x0)))
  else .ok (.inr x)

/-- model_two_body.hpp:150-157 `wrap`. -/
noncomputable def wrap (x0 x1 x : α) : Outcome α := Loop.whileLoop (step x0 x1) x

/-- model_two_body.hpp:213-216, 484-487: the loop that adds whole periods until the time of periapse is passed, for a known period.  Over exact numbers this is `TwoBody.catchUp`. -/
noncomputable def catchUp (tau P t : α) : Outcome α := Loop.whileLoop (fun t : α => if t < tau then .ok (.inl (t + P)) else .ok (.inr t)) t

end Verif.Wrap
