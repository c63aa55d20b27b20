/-!
# Outcomes of C++ functions

The result of running a piece of the C++ code.  Undefined behaviour and non-termination are
outcomes of their own, never identified with a value or with an exception.
-/

namespace Verif

/-- Exception types thrown (explicitly or by the standard library) in the modelled code. -/
inductive Exn where
  | outOfRange
  | invalidArgument
  | logicError
  | runtimeError
  | badVariantAccess
  | badAlloc
  | other
deriving DecidableEq, Repr

/-- Outcome of evaluating a C++ expression. -/
inductive Outcome (α : Type u) where
  /-- normal return -/
  | ok (a : α)
  /-- an exception propagates -/
  | throws (e : Exn)
  /-- undefined behaviour (signed overflow, out-of-bounds access, bad shift, use after free, ...) -/
  | ub
  /-- the loop never exits -/
  | diverges
deriving Repr

instance {α : Type u} [DecidableEq α] : DecidableEq (Outcome α)
  | .ok a, .ok b => if h : a = b then isTrue (by rw [h]) else isFalse (by intro e; injection e; contradiction)
  | .throws a, .throws b =>
    if h : a = b then isTrue (by rw [h]) else isFalse (by intro e; injection e; contradiction)
  | .ub, .ub => isTrue rfl
  | .diverges, .diverges => isTrue rfl
  | .ok _, .throws _ | .ok _, .ub | .ok _, .diverges | .throws _, .ok _ | .throws _, .ub
  | .throws _, .diverges | .ub, .ok _ | .ub, .throws _ | .ub, .diverges | .diverges, .ok _
  | .diverges, .throws _ | .diverges, .ub => isFalse (by intro e; cases e)

namespace Outcome

variable {α : Type u} {β : Type v} {γ : Type w}

/-- Sequencing. -/
def bind (x : Outcome α) (f : α → Outcome β) : Outcome β :=
  match x with
  | ok a => f a
  | throws e => throws e
  | ub => ub
  | diverges => diverges

/-- Mapping over a normal return. -/
def map (f : α → β) (x : Outcome α) : Outcome β := x.bind (fun a => ok (f a))

instance : Monad Outcome where
  pure := ok
  bind := bind

@[simp] theorem bind_ok (a : α) (f : α → Outcome β) : (ok a).bind f = f a := rfl
@[simp] theorem bind_throws (e : Exn) (f : α → Outcome β) :
    (throws e : Outcome α).bind f = throws e := rfl
@[simp] theorem bind_ub (f : α → Outcome β) : (ub : Outcome α).bind f = ub := rfl
@[simp] theorem bind_diverges (f : α → Outcome β) :
    (diverges : Outcome α).bind f = diverges := rfl
@[simp] theorem pure_eq (a : α) : (pure a : Outcome α) = ok a := rfl
@[simp] theorem monad_bind_eq {α β : Type u} (x : Outcome α) (f : α → Outcome β) :
    (x >>= f) = x.bind f := rfl
@[simp] theorem map_ok (a : α) (f : α → β) : (ok a).map f = ok (f a) := rfl
@[simp] theorem map_throws (e : Exn) (f : α → β) :
    (throws e : Outcome α).map f = throws e := rfl
@[simp] theorem map_ub (f : α → β) : (ub : Outcome α).map f = ub := rfl
@[simp] theorem map_diverges (f : α → β) : (diverges : Outcome α).map f = diverges := rfl

theorem bind_eq_ok {x : Outcome α} {f : α → Outcome β} {b : β} :
    x.bind f = ok b ↔ ∃ a, x = ok a ∧ f a = ok b := by
  cases x <;> simp

theorem map_eq_ok {x : Outcome α} {f : α → β} {b : β} :
    x.map f = ok b ↔ ∃ a, x = ok a ∧ f a = b := by
  cases x <;> simp

theorem bind_assoc (x : Outcome α) (f : α → Outcome β) (g : β → Outcome γ) :
    (x.bind f).bind g = x.bind (fun a => (f a).bind g) := by
  cases x <;> rfl

end Outcome
end Verif
